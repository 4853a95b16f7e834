import Verif.Ghost2DLemmas
import Verif.CartProps

/-! # C04–C07, C10–C12 for `MPIGhostCommunicator2D` -/

namespace Sopht

variable {α : Type}

/-! ## C04: pairing of messages -/

/-- C04 (2D): in a ghost exchange every send has a receive and vice versa, in the non-overtaking order, with the same number
of elements; so `Waitall` completes without error. Holds even when several neighbours are one and the same rank. -/
theorem ghost2_all_matched (T : Cart2) {g : ℕ} (hg : 1 ≤ g) (full : Bool) :
    AllMatched (ranks2 T) (posts2 T g full) := by
  refine allMatched_congr (q := fun c => (dirs2 full).map (gpost2 T g c))
    (fun r hr => posts2_eq hg full (mem_ranks2.1 hr)) ?_
  apply allMatched_spmd
  · intro s hs k _
    have hp := (mem_ranks2.1 hs).pos
    exact ⟨fun r h => mem_ranks2.2 (nbr2_valid hp.1 hp.2 h), fun r h => mem_ranks2.2 (nbr2_valid hp.1 hp.2 h)⟩
  · intro s hs r hr k _
    exact gpost2_mirror (mem_ranks2.1 hs) (mem_ranks2.1 hr)
  · intro s hs r hr k _ _
    simp [gpost2]

/-- non-vacuity: on a periodic 2 × 1 topology (previous = next) rank (0,0) sends six messages to rank (1,0) when corners
are exchanged as well: 2 along y and 4 diagonal ones -/
example : (sendsTo (posts2 ⟨4, 2, 2, 1, 2, 2, true⟩ 1 true) (0, 0) (1, 0)).length = 6 := by decide

/-! ## C05, C06: what the exchange delivers -/

/-- C05 (`full = false`) and C06 (`full = true`): after `exchange_scalar_field_init` and `exchange_finalise`, for every order in
which messages complete, every cell of every rank holds what `halo2` says: the owning neighbour's inner value in ghost
cells that have a neighbour and are covered by the exchange mode, the old value elsewhere. -/
theorem exchange2_correct (T : Cart2) {g : ℕ} (hg : 1 ≤ g) (hy : g ≤ T.ny) (hx : g ≤ T.nx) (full : Bool)
    (w : World C2 ℤ α) {sched : List Ev} (hs : Finalised2 T g full sched)
    {c p : C2} (hc : Valid2 T c) (hp : InArr2 T g p) :
    exchange2 T g full w sched c (flat2 T g p) = halo2 T g full (fun d q => w d (flat2 T g q)) c p := by
  unfold exchange2
  rw [runNet_eq (ghost2_exchSpec hg hy hx full w) hs, haloFlat_at hc hp]
  rfl

/-- no message of the exchange is received into an inner cell -/
theorem exchange2_inner_not_received {T : Cart2} {g : ℕ} (hg : 1 ≤ g) (full : Bool) {m : Msg C2 ℤ} (hm : m ∈ ghostMsgs2 T g full)
    {p : C2} (hp : Inner2 T g p) : flat2 T g p ∉ m.recvIx := by
  intro hi
  rw [mem_ghostMsgs2 hg] at hm
  obtain ⟨s, r, k, -, -, hk, -, rfl⟩ := hm
  simp only [gpost2, List.mem_map] at hi
  obtain ⟨q, hq, he⟩ := hi
  rw [mem_rect] at hq
  rw [dirs2_spec] at hk
  obtain ⟨k1, k2, k3, -⟩ := hk
  obtain ⟨p1, p2, p3, p4⟩ := hp
  have rx := axRecv_range k2 hq.2.2.1 hq.2.2.2
  have hw : p.2 < cols2 T g := by unfold cols2; omega
  have := flat2_inj (T := T) (g := g) rx.1 rx.2 (by omega) hw he
  have zy := axRecv_zone k1 hq.1 hq.2.1
  have zx := axRecv_zone k2 hq.2.2.1 hq.2.2.2
  rw [show axRecv T.ny g k.1 + q.1 = p.1 by rw [← this], zone_zero_iff.2 ⟨p1, by omega⟩] at zy
  rw [show axRecv T.nx g k.2 + q.2 = p.2 by rw [← this], zone_zero_iff.2 ⟨p3, by omega⟩] at zx
  exact k3 (Prod.ext (by simp only; omega) (by simp only; omega))

/-- C05: inner cells are never modified, at any moment of the exchange (`sched` need not be complete). -/
theorem exchange2_inner_kept (T : Cart2) {g : ℕ} (hg : 1 ≤ g) (hy : g ≤ T.ny) (hx : g ≤ T.nx) (full : Bool)
    (w : World C2 ℤ α) (sched : List Ev) {c p : C2} (hp : Inner2 T g p) :
    exchange2 T g full w sched c (flat2 T g p) = w c (flat2 T g p) := by
  unfold exchange2
  exact runNet_untouched (ghost2_exchSpec hg hy hx full w) sched c _ fun m hm _ hi => exchange2_inner_not_received hg full hm hp hi

/-- C05: the ghost rows below and above spelled out: they hold the neighbour's inner rows; ghost cells on a side without neighbour
keep their values. -/
theorem exchange2_edges (T : Cart2) {g : ℕ} (hg : 1 ≤ g) (hy : g ≤ T.ny) (hx : g ≤ T.nx) (full : Bool)
    (w : World C2 ℤ α) {sched : List Ev} (hs : Finalised2 T g full sched) {c : C2} (hc : Valid2 T c)
    {i j : ℤ} (hj : (g : ℤ) ≤ j ∧ j < g + T.nx) :
    (0 ≤ i → i < g → ∀ d, prevY2 T c = some d →
      exchange2 T g full w sched c (flat2 T g (i, j)) = w d (flat2 T g (i + T.ny, j))) ∧
    (g + T.ny ≤ i → i < T.ny + 2 * g → ∀ d, nextY2 T c = some d →
      exchange2 T g full w sched c (flat2 T g (i, j)) = w d (flat2 T g (i - T.ny, j))) ∧
    (0 ≤ i → i < g → prevY2 T c = none →
      exchange2 T g full w sched c (flat2 T g (i, j)) = w c (flat2 T g (i, j))) ∧
    (g + T.ny ≤ i → i < T.ny + 2 * g → nextY2 T c = none →
      exchange2 T g full w sched c (flat2 T g (i, j)) = w c (flat2 T g (i, j))) := by
  have zj : zone g T.nx j = 0 := zone_zero_iff.2 hj
  have key : ∀ k : ℤ, zone g T.ny i = k → k ≠ 0 → 0 ≤ i → i < T.ny + 2 * g →
      exchange2 T g full w sched c (flat2 T g (i, j)) =
        match nbr2 T c (k, 0) with
        | some d => w d (flat2 T g (i - k * T.ny, j))
        | none => w c (flat2 T g (i, j)) := by
    intro k hk h0 h1 h2
    rw [exchange2_correct T hg hy hx full w hs hc ⟨h1, h2, by simp only; omega, by simp only; omega⟩]
    unfold halo2
    simp only [hk, zj]
    rw [if_neg (by simp [h0])]
    simp only [zero_mul, sub_zero]
    rfl
  rw [prevY2_eq hc, nextY2_eq hc]
  refine ⟨?_, ?_, ?_, ?_⟩
  · intro h0 h1 d hd
    rw [key (-1) (by unfold zone; rw [if_pos h1]) (by omega) h0 (by omega), hd]
    simp
  · intro h0 h1 d hd
    rw [key 1 (by unfold zone; rw [if_neg (by omega), if_neg (by omega)]) (by omega) (by omega) h1, hd]
    simp
  · intro h0 h1 hd
    rw [key (-1) (by unfold zone; rw [if_pos h1]) (by omega) h0 (by omega), hd]
  · intro h0 h1 hd
    rw [key 1 (by unfold zone; rw [if_neg (by omega), if_neg (by omega)]) (by omega) (by omega) h1, hd]

/-- C05: the left and right ghost columns spelled out. -/
theorem exchange2_columns (T : Cart2) {g : ℕ} (hg : 1 ≤ g) (hy : g ≤ T.ny) (hx : g ≤ T.nx) (full : Bool)
    (w : World C2 ℤ α) {sched : List Ev} (hs : Finalised2 T g full sched) {c : C2} (hc : Valid2 T c)
    {i j : ℤ} (hp : InArr2 T g (i, j)) (hi : zone g T.ny i = 0) :
    (j < g → exchange2 T g full w sched c (flat2 T g (i, j)) = (match prevX2 T c with
        | some d => w d (flat2 T g (i, j + T.nx)) | none => w c (flat2 T g (i, j)))) ∧
    (g + T.nx ≤ j → exchange2 T g full w sched c (flat2 T g (i, j)) = (match nextX2 T c with
        | some d => w d (flat2 T g (i, j - T.nx)) | none => w c (flat2 T g (i, j)))) := by
  have lo : ∀ (n : ℕ) (x : ℤ), x < g → zone g n x = -1 := by
    intro n x h; unfold zone; rw [if_pos h]
  have hi' : ∀ (n : ℕ) (x : ℤ), g + n ≤ x → zone g n x = 1 := by
    intro n x h; unfold zone; rw [if_neg (by omega), if_neg (by omega)]
  rw [exchange2_correct T hg hy hx full w hs hc hp, prevX2_eq hc, nextX2_eq hc]
  unfold halo2
  simp only
  refine ⟨fun h => ?_, fun h => ?_⟩
  · rw [hi, lo _ _ h, if_neg (by simp)]
    simp only [zero_mul, sub_zero, neg_mul, one_mul, sub_neg_eq_add]
    rfl
  · rw [hi, hi' _ _ h, if_neg (by simp)]
    simp only [zero_mul, sub_zero, one_mul]
    rfl

/-- C06: corner ghost cells spelled out: the corner in direction `(sy, sx)` holds the diagonal neighbour's inner corner. -/
theorem exchange2_corners (T : Cart2) {g : ℕ} (hg : 1 ≤ g) (hy : g ≤ T.ny) (hx : g ≤ T.nx)
    (w : World C2 ℤ α) {sched : List Ev} (hs : Finalised2 T g true sched) {c d p s : C2} (hc : Valid2 T c)
    (hp : InArr2 T g p) (h1 : zone g T.ny p.1 = s.1) (h2 : zone g T.nx p.2 = s.2) (hs1 : s.1 ≠ 0)
    (hd : diag2 T c s = some d) :
    exchange2 T g true w sched c (flat2 T g p) = w d (flat2 T g (p.1 - s.1 * T.ny, p.2 - s.2 * T.nx)) := by
  rw [exchange2_correct T hg hy hx true w hs hc hp]
  rw [diag2_eq] at hd
  unfold halo2
  simp only [h1, h2]
  rw [if_neg (by simp [Prod.ext_iff, hs1])]
  have : nbr2 T c (s.1, s.2) = some d := hd
  rw [this]

/-- non-vacuity of C05/C06: two ranks along y, ghost size 1, blocks of 2 × 2; a complete schedule exists in which all messages
are picked up first and land in reverse order; the ghost row of rank (0,0) then holds the first inner row of rank (1,0). -/
example : Finalised2 ⟨4, 2, 2, 1, 2, 2, false⟩ 1 false [.pick 0, .pick 1, .land 1, .land 0] ∧
    exchange2 ⟨4, 2, 2, 1, 2, 2, false⟩ 1 false (fun c i => 100 * c.1 + i) [.pick 0, .pick 1, .land 1, .land 0]
      (0, 0) (flat2 ⟨4, 2, 2, 1, 2, 2, false⟩ 1 (3, 2)) = 100 + flat2 ⟨4, 2, 2, 1, 2, 2, false⟩ 1 (1, 2) := by
  refine ⟨?_, by decide⟩
  intro k hk
  have : (ghostMsgs2 ⟨4, 2, 2, 1, 2, 2, false⟩ 1 false).length = 2 := by decide
  rw [this] at hk
  rcases (by omega : k = 0 ∨ k = 1) with rfl | rfl
  · exact ⟨[], [.pick 1, .land 1], [], rfl⟩
  · exact ⟨[.pick 0], [], [.land 0], rfl⟩

/-! ## C07: window of the global field -/

/-- C07 (2D, non-periodic): if inner cells hold a global field, then after the exchange every cell that the exchange mode covers
and whose global index lies in the domain holds the global field there. -/
theorem exchange2_global_window {gy gx py px : ℕ} {T : Cart2} (hT : mkCart2 gy gx py px false = .ok T)
    {g : ℕ} (hg : 1 ≤ g) (hy : g ≤ T.ny) (hx : g ≤ T.nx) (full : Bool) (F : C2 → α)
    (w : World C2 ℤ α) (hw : ∀ c p, Valid2 T c → Inner2 T g p → w c (flat2 T g p) = F (globalIx2 T g c p))
    {sched : List Ev} (hs : Finalised2 T g full sched) {c p : C2} (hc : Valid2 T c) (hp : InArr2 T g p)
    (hG : InDomain2 T (globalIx2 T g c p))
    (hcov : full = true ∨ zone g T.ny p.1 = 0 ∨ zone g T.nx p.2 = 0) :
    exchange2 T g full w sched c (flat2 T g p) = F (globalIx2 T g c p) := by
  obtain ⟨-, -, -, -, hper, hY, hX⟩ := construct2_ok hT
  rw [exchange2_correct T hg hy hx full w hs hc hp]
  obtain ⟨c1, c2, c3, c4⟩ := id hc
  obtain ⟨p1, p2, p3, p4⟩ := hp
  obtain ⟨g1, g2, g3, g4⟩ := hG
  simp only [globalIx2] at g1 g2 g3 g4
  rw [← hY] at g2
  rw [← hX] at g4
  have wy := axis_window hy c1 c2 p1 p2
  have wx := axis_window hx c3 c4 p3 p4
  unfold halo2
  simp only
  split
  · rename_i h
    refine hw c p hc ?_
    rcases h with h | ⟨h1, h2, h3⟩
    · simp only [Prod.mk.injEq] at h
      have a := zone_zero_iff.1 h.1
      have b := zone_zero_iff.1 h.2
      exact ⟨a.1, a.2, b.1, b.2⟩
    · rcases hcov with h | h | h
      · rw [h] at h1; cases h1
      · exact absurd h h2
      · exact absurd h h3
  · have hn : nbr2 T c (zone g T.ny p.1, zone g T.nx p.2) = some (c.1 + zone g T.ny p.1, c.2 + zone g T.nx p.2) := by
      rw [nbr2_eq_some, hper]
      exact ⟨wy.1 g1 g2, wx.1 g3 g4⟩
    rw [hn]
    simp only
    have hd := nbr2_valid hc.pos.1 hc.pos.2 hn
    rw [hw _ _ hd ⟨wy.2.1.1, wy.2.1.2, wx.2.1.1, wx.2.1.2⟩]
    congr 1
    unfold globalIx2
    refine Prod.ext ?_ ?_ <;> simp only <;> ring

/-- C07 (2D, periodic): every covered cell holds the global field at the wrapped global index. -/
theorem exchange2_global_window_periodic {gy gx py px : ℕ} {T : Cart2} (hT : mkCart2 gy gx py px true = .ok T)
    {g : ℕ} (hg : 1 ≤ g) (hy : g ≤ T.ny) (hx : g ≤ T.nx) (full : Bool) (F : C2 → α)
    (w : World C2 ℤ α) (hw : ∀ c p, Valid2 T c → Inner2 T g p → w c (flat2 T g p) = F (globalIx2 T g c p))
    {sched : List Ev} (hs : Finalised2 T g full sched) {c p : C2} (hc : Valid2 T c) (hp : InArr2 T g p)
    (hcov : full = true ∨ zone g T.ny p.1 = 0 ∨ zone g T.nx p.2 = 0) :
    exchange2 T g full w sched c (flat2 T g p) = F (wrap2 T (globalIx2 T g c p)) := by
  obtain ⟨-, -, -, -, hper, hY, hX⟩ := construct2_ok hT
  rw [exchange2_correct T hg hy hx full w hs hc hp]
  obtain ⟨c1, c2, c3, c4⟩ := id hc
  obtain ⟨p1, p2, p3, p4⟩ := hp
  have wy := axis_window hy c1 c2 p1 p2
  have wx := axis_window hx c3 c4 p3 p4
  have hn : nbr2 T c (zone g T.ny p.1, zone g T.nx p.2)
      = some ((c.1 + zone g T.ny p.1) % T.py, (c.2 + zone g T.nx p.2) % T.px) := by
    rw [nbr2_eq_some, hper, axisNbr_eq, axisNbr_eq]; simp
  have hd := nbr2_valid hc.pos.1 hc.pos.2 hn
  have main : w ((c.1 + zone g T.ny p.1) % T.py, (c.2 + zone g T.nx p.2) % T.px)
      (flat2 T g (p.1 - zone g T.ny p.1 * T.ny, p.2 - zone g T.nx p.2 * T.nx)) = F (wrap2 T (globalIx2 T g c p)) := by
    rw [hw _ _ hd ⟨wy.2.1.1, wy.2.1.2, wx.2.1.1, wx.2.1.2⟩]
    congr 1
    unfold globalIx2 wrap2
    rw [← hY, ← hX]
    exact Prod.ext wy.2.2 wx.2.2
  unfold halo2
  simp only
  split
  · rename_i h
    have h0 : zone g T.ny p.1 = 0 ∧ zone g T.nx p.2 = 0 := by
      rcases h with h | ⟨h1, h2, h3⟩
      · simpa [Prod.ext_iff] using h
      · rcases hcov with h | h | h
        · rw [h] at h1; cases h1
        · exact absurd h h2
        · exact absurd h h3
    rw [h0.1, h0.2] at main
    simp only [add_zero, zero_mul, sub_zero] at main
    rw [Int.emod_eq_of_lt c1 c2, Int.emod_eq_of_lt c3 c4] at main
    exact main
  · rw [hn]
    exact main

/-- non-vacuity of C07: such arrays exist for every field (each rank simply holds its block) -/
example (F : C2 → α) (T : Cart2) (g : ℕ) : ∃ w : World C2 ℤ α,
    ∀ c p, Valid2 T c → Inner2 T g p → w c (flat2 T g p) = F (globalIx2 T g c p) := by
  refine ⟨fun c i => F (globalIx2 T g c (i / cols2 T g, i % cols2 T g)), ?_⟩
  intro c p hc hp
  have hw : p.2 < cols2 T g := by unfold cols2; have := hp.2.2.2; omega
  have := flat2_div (T := T) (g := g) (p := p) (by have := hp.2.2.1; omega) hw
  simp only [this.1, this.2]
/-- and a ghost cell of rank (1,0) of two ranks has a global index inside the domain -/
example : InDomain2 ⟨4, 2, 2, 1, 2, 2, false⟩ (globalIx2 ⟨4, 2, 2, 1, 2, 2, false⟩ 1 (1, 0) (0, 1)) := by
  simp [InDomain2, globalIx2]

/-! ## C10: repeatable, componentwise -/

/-- C10 (2D): a second exchange changes nothing, whatever the schedules. -/
theorem exchange2_idempotent (T : Cart2) {g : ℕ} (hg : 1 ≤ g) (hy : g ≤ T.ny) (hx : g ≤ T.nx) (full : Bool)
    (w : World C2 ℤ α) {s1 s2 : List Ev} (h1 : Finalised2 T g full s1) (h2 : Finalised2 T g full s2)
    {c p : C2} (hc : Valid2 T c) (hp : InArr2 T g p) :
    exchange2 T g full (exchange2 T g full w s1) s2 c (flat2 T g p) = exchange2 T g full w s1 c (flat2 T g p) := by
  rw [exchange2_correct T hg hy hx full _ h2 hc hp]
  unfold halo2
  simp only
  split
  · rfl
  · rename_i hcond
    cases hn : nbr2 T c (zone g T.ny p.1, zone g T.nx p.2) with
    | none => rfl
    | some d =>
      simp only
      obtain ⟨p1, p2, p3, p4⟩ := id hp
      obtain ⟨c1, c2, c3, c4⟩ := id hc
      have wy := (axis_window hy c1 c2 p1 p2).2.1
      have wx := (axis_window hx c3 c4 p3 p4).2.1
      rw [exchange2_inner_kept T hg hy hx full w s1 ⟨wy.1, wy.2, wx.1, wx.2⟩]
      rw [exchange2_correct T hg hy hx full w h1 hc hp]
      unfold halo2
      simp only
      rw [if_neg hcond, hn]

theorem vecGhost2_exchSpec {T : Cart2} {g : ℕ} (hg : 1 ≤ g) (hy : g ≤ T.ny) (hx : g ≤ T.nx)
    (full : Bool) (w : World C2 (Fin 2 × ℤ) α) :
    ExchSpec (vecGhostMsgs2 T g full) w (fun r ki => haloFlat T g full (fun c i => w c (ki.1, i)) r ki.2) := by
  have hcomp : ∀ k : Fin 2, k ∈ ([0, 1] : List (Fin 2)) := by decide
  refine ExchSpec.vec (comps := [0, 1]) (M := ghostMsgs2 T g full) ?_
    (F := fun k => haloFlat T g full (fun c i => w c (k, i))) (fun k _ => ghost2_exchSpec hg hy hx full _) hcomp
  intro m
  have e1 : vecGhostMsgs2 T g full
      = allMsgs (ranks2 T) (vecPosts ([0, 1] : List (Fin 2)) (fun c => (dirs2 full).map (gpost2 T g c))) := by
    unfold vecGhostMsgs2
    apply allMsgs_congr
    intro r hr
    unfold vecPosts2 vecPosts
    rw [posts2_eq hg full (mem_ranks2.1 hr)]
  have e2 : ghostMsgs2 T g full = allMsgs (ranks2 T) (fun c => (dirs2 full).map (gpost2 T g c)) := by
    unfold ghostMsgs2
    exact allMsgs_congr (fun r hr => posts2_eq hg full (mem_ranks2.1 hr))
  rw [e1, e2]
  exact mem_vecMsgs_spmd _ (ranks2 T) (dirs2 full) (gpost2 T g)
    (fun s hs r hr k _ => gpost2_mirror (mem_ranks2.1 hs) (mem_ranks2.1 hr)) m

/-- C10 (2D): a vector exchange gives each component what a scalar exchange of that component gives. -/
theorem vecExchange2_componentwise (T : Cart2) {g : ℕ} (hg : 1 ≤ g) (hy : g ≤ T.ny) (hx : g ≤ T.nx) (full : Bool)
    (w : World C2 (Fin 2 × ℤ) α) {sv ss : List Ev} (hv : Complete (vecGhostMsgs2 T g full) sv)
    (hs : Finalised2 T g full ss) (k : Fin 2) (c : C2) (i : ℤ) :
    vecExchange2 T g full w sv c (k, i) = exchange2 T g full (fun c i => w c (k, i)) ss c i := by
  unfold vecExchange2 exchange2
  rw [runNet_eq (vecGhost2_exchSpec hg hy hx full w) hv, runNet_eq (ghost2_exchSpec hg hy hx full _) hs]

/-- non-vacuity: complete schedules exist for every message list (pick up and land one after the other) -/
theorem complete_schedule_exists {R ι : Type} (M : List (Msg R ι)) : ∃ sched, Complete M sched := by
  refine ⟨(List.range M.length).flatMap (fun k => [Ev.pick k, Ev.land k]), ?_⟩
  intro k hk
  have hsplit : List.range M.length = List.range k ++ k :: (List.range (M.length - k - 1)).map (· + (k + 1)) := by
    have h1 : M.length = k + (1 + (M.length - k - 1)) := by omega
    conv_lhs => rw [h1]
    rw [List.range_add, List.range_add]
    simp only [List.map_append, List.map_map, List.range_one, List.map_cons, List.map_nil]
    simp only [add_zero, List.cons_append, List.nil_append]
    congr 2
    apply List.map_congr_left
    intro a _
    simp only [Function.comp]
    omega
  refine ⟨(List.range k).flatMap (fun k => [Ev.pick k, Ev.land k]), [],
    ((List.range (M.length - k - 1)).map (· + (k + 1))).flatMap (fun k => [Ev.pick k, Ev.land k]), ?_⟩
  rw [hsplit, List.flatMap_append, List.flatMap_cons]
  simp

/-! ## C11: ghost size check -/

/-- C11: what the check of the ghost communicators accepts: every int, whatever its sign, and every positive float. -/
theorem ghostCommCheck_accepts_iff (x : PyNum) :
    ghostCommCheck x = .ok () ↔ (∃ v, x = .int v) ∨ ∃ n d, x = .float n d ∧ 0 < n := by
  cases x with
  | int v => simp [ghostCommCheck, PyNum.isInt]
  | float n d => simp [ghostCommCheck, PyNum.isInt, PyNum.nonpos]

/-- C11: the documented contract ("needs to be an integer > 0") is violated: 0, negative ints and 1.5 are all accepted. -/
theorem ghostCommCheck_unsound :
    ¬ ∀ x, ghostCommCheck x = .ok () → ∃ v, x = .int v ∧ 0 < v := by
  intro h
  obtain ⟨v, hv, h0⟩ := h (.int (-3)) rfl
  cases hv
  omega

/-- C11: what the check of the field communicators accepts. -/
theorem fieldCommCheck_accepts_iff (x : PyNum) :
    fieldCommCheck x = .ok () ↔ (∃ v, x = .int v) ∨ ∃ n d, x = .float n d ∧ 0 ≤ n := by
  cases x with
  | int v => simp [fieldCommCheck, PyNum.isInt]
  | float n d => simp [fieldCommCheck, PyNum.isInt, PyNum.neg]

/-- C11: the contract "integer >= 0" is violated. -/
theorem fieldCommCheck_unsound :
    ¬ ∀ x, fieldCommCheck x = .ok () → ∃ v, x = .int v ∧ 0 ≤ v := by
  intro h
  obtain ⟨v, hv, h0⟩ := h (.int (-3)) rfl
  cases hv
  omega

/-- C11: no legitimate ghost size is refused. -/
theorem ghostCommCheck_complete (v : ℤ) (_ : 0 < v) : ghostCommCheck (.int v) = .ok () := by
  simp [ghostCommCheck, PyNum.isInt]

/-! ## C12: blocks thinner than the ghost layer -/

/-- Three ranks along y with one row each, ghost size 2. -/
def thinT : Cart2 := ⟨3, 2, 3, 1, 1, 2, false⟩
/-- Global field: row number plus one. Inner cells hold it, ghosts hold 0. -/
def thinW : World C2 ℤ ℤ := fun c i => if i / 6 = 2 ∧ 2 ≤ i % 6 ∧ i % 6 < 4 then c.1 + 1 else 0
/-- A complete schedule of its four messages. -/
def thinS : List Ev := [.pick 0, .pick 1, .pick 2, .pick 3, .land 0, .land 1, .land 2, .land 3]

/-- C12: nothing refuses a block thinner than the ghost layer, and then the exchange is wrong: the ghost cell (0, 2) of rank (2, 0)
has global index (0, 0), which lies in the domain and holds 1, but the exchange delivers 0. -/
theorem exchange2_thin_block_wrong :
    mkCart2 3 2 3 1 false = .ok thinT ∧ ghostCommCheck (.int 2) = .ok () ∧ Finalised2 thinT 2 false thinS ∧
    (∀ c p, Valid2 thinT c → Inner2 thinT 2 p → thinW c (flat2 thinT 2 p) = (globalIx2 thinT 2 c p).1 + 1) ∧
    Valid2 thinT (2, 0) ∧ InArr2 thinT 2 (0, 2) ∧ InDomain2 thinT (globalIx2 thinT 2 (2, 0) (0, 2)) ∧
    exchange2 thinT 2 false thinW thinS (2, 0) (flat2 thinT 2 (0, 2)) ≠ (globalIx2 thinT 2 (2, 0) (0, 2)).1 + 1 := by
  refine ⟨rfl, rfl, ?_, ?_, by simp [Valid2, thinT], by simp [InArr2, thinT], by simp [InDomain2, globalIx2, thinT], ?_⟩
  · intro k hk
    have : (ghostMsgs2 thinT 2 false).length = 4 := by decide
    rw [this] at hk
    rcases (by omega : k = 0 ∨ k = 1 ∨ k = 2 ∨ k = 3) with rfl | rfl | rfl | rfl
    · exact ⟨[], [.pick 1, .pick 2, .pick 3], [.land 1, .land 2, .land 3], rfl⟩
    · exact ⟨[.pick 0], [.pick 2, .pick 3, .land 0], [.land 2, .land 3], rfl⟩
    · exact ⟨[.pick 0, .pick 1], [.pick 3, .land 0, .land 1], [.land 3], rfl⟩
    · exact ⟨[.pick 0, .pick 1, .pick 2], [.land 0, .land 1, .land 2], [], rfl⟩
  · rintro ⟨cy, cx⟩ ⟨i, j⟩ - ⟨h1, h2, h3, h4⟩
    simp only [thinT] at h1 h2 h3 h4
    have : i = 2 := by push_cast at h1 h2; omega
    subst this
    push_cast at h3 h4
    have hf : flat2 thinT 2 (2, j) = 12 + j := by simp [flat2, cols2, thinT]
    have hc : (flat2 thinT 2 (2, j)) / 6 = 2 ∧ 2 ≤ (flat2 thinT 2 (2, j)) % 6 ∧ (flat2 thinT 2 (2, j)) % 6 < 4 := by
      rw [hf]; omega
    show (if _ then _ else _) = _
    rw [if_pos hc]
    simp [globalIx2, thinT]
  · decide

end Sopht
