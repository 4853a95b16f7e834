import Verif.Ghost3D
import Verif.Ghost2DLemmas

/-! Helper lemmas for the 3D ghost exchange. -/

set_option linter.unusedSimpArgs false

namespace Sopht

/-- box of displacements in type-map order -/
def box (cz cy cx : ℕ) : List C3 :=
  (irange cz).flatMap fun a => (irange cy).flatMap fun b => (irange cx).map fun c => (a, b, c)

theorem mem_box {cz cy cx : ℕ} {p : C3} : p ∈ box cz cy cx ↔
    0 ≤ p.1 ∧ p.1 < cz ∧ 0 ≤ p.2.1 ∧ p.2.1 < cy ∧ 0 ≤ p.2.2 ∧ p.2.2 < cx := by
  unfold box
  simp only [List.mem_flatMap, List.mem_map, mem_irange]
  constructor
  · rintro ⟨a, ha, b, hb, d, hd, rfl⟩; simp; omega
  · intro h; exact ⟨p.1, by omega, p.2.1, by omega, p.2.2, by omega, rfl⟩

theorem subIx_eq (s : ℕ × ℕ × ℕ) (st : C3) :
    subIx s st = (box s.1 s.2.1 s.2.2).map fun p => (st.1 + p.1, st.2.1 + p.2.1, st.2.2 + p.2.2) := by
  unfold subIx box
  rw [List.map_flatMap]
  congr 1
  funext a
  rw [List.map_flatMap]
  congr 1
  funext b
  rw [List.map_map]
  rfl

/-- The generic message in direction `s`. -/
def gpost3 (T : Cart3) (g : ℕ) (c s : C3) : Post C3 C3 :=
  ⟨nbr3 T c s,
   subIx (axCnt T.nz g s.1, axCnt T.ny g s.2.1, axCnt T.nx g s.2.2)
      (axSend T.nz g s.1, axSend T.ny g s.2.1, axSend T.nx g s.2.2),
   nbr3 T c (-s.1, -s.2.1, -s.2.2),
   subIx (axCnt T.nz g s.1, axCnt T.ny g s.2.1, axCnt T.nx g s.2.2)
      (axRecv T.nz g s.1, axRecv T.ny g s.2.1, axRecv T.nx g s.2.2)⟩

def faceDirs3 : List C3 := [(0, 0, 1), (0, 0, -1), (0, 1, 0), (0, -1, 0), (1, 0, 0), (-1, 0, 0)]
def edgeDirs3 : List C3 := [(0, 1, 1), (0, -1, 1), (0, 1, -1), (0, -1, -1), (1, 0, 1), (-1, 0, 1), (1, 0, -1), (-1, 0, -1),
  (1, 1, 0), (-1, 1, 0), (1, -1, 0), (-1, -1, 0)]
def vertexDirs3 : List C3 := [(1, 1, 1), (-1, 1, 1), (1, -1, 1), (1, 1, -1), (-1, -1, 1), (-1, 1, -1), (1, -1, -1), (-1, -1, -1)]

def dirs3 (full : Bool) : List C3 := if full then faceDirs3 ++ edgeDirs3 ++ vertexDirs3 else faceDirs3

theorem fz1 (T : Cart3) (g : ℕ) : fz T g - g = g + T.nz := by unfold fz; ring
theorem fy1 (T : Cart3) (g : ℕ) : fy T g - g = g + T.ny := by unfold fy; ring
theorem fx1 (T : Cart3) (g : ℕ) : fx T g - g = g + T.nx := by unfold fx; ring
theorem fz2 (T : Cart3) (g : ℕ) : fz T g - 2 * g = T.nz := by unfold fz; ring
theorem fy2 (T : Cart3) (g : ℕ) : fy T g - 2 * g = T.ny := by unfold fy; ring
theorem fx2 (T : Cart3) (g : ℕ) : fx T g - 2 * g = T.nx := by unfold fx; ring

theorem axv (n g : ℕ) : axSend n g 1 = n ∧ axSend n g 0 = g ∧ axSend n g (-1) = g ∧ axRecv n g 1 = 0 ∧
    axRecv n g 0 = g ∧ axRecv n g (-1) = g + n ∧ axCnt n g 1 = g ∧ axCnt n g 0 = n ∧ axCnt n g (-1) = g := by
  simp [axSend, axRecv, axCnt]

theorem facePosts3_eq {T : Cart3} {g : ℕ} {c : C3} (hc : Valid3 T c) :
    facePosts3 T g c = faceDirs3.map (gpost3 T g c) := by
  obtain ⟨a1, a2, a3, a4, a5, a6, a7, a8, a9⟩ := axv T.nz g
  obtain ⟨b1, b2, b3, b4, b5, b6, b7, b8, b9⟩ := axv T.ny g
  obtain ⟨d1, d2, d3, d4, d5, d6, d7, d8, d9⟩ := axv T.nx g
  simp only [facePosts3, faceDirs3, List.map_cons, List.map_nil, gpost3, neg_neg, neg_zero,
    prevZ3_eq hc, nextZ3_eq hc, prevY3_eq hc, nextY3_eq hc, prevX3_eq hc, nextX3_eq hc,
    a1, a2, a3, a4, a5, a6, a7, a8, a9, b1, b2, b3, b4, b5, b6, b7, b8, b9, d1, d2, d3, d4, d5, d6, d7, d8, d9,
    send_to_0_0_px_type, recv_from_0_0_nx_type, send_to_0_0_nx_type, recv_from_0_0_px_type,
    send_to_0_py_0_type, recv_from_0_ny_0_type, send_to_0_ny_0_type, recv_from_0_py_0_type,
    send_to_pz_0_0_type, recv_from_nz_0_0_type, send_to_nz_0_0_type, recv_from_pz_0_0_type,
    fz1, fy1, fx1, fz2, fy2, fx2]

theorem edgePosts3_eq {T : Cart3} {g : ℕ} (c : C3) :
    edgePosts3 T g c = edgeDirs3.map (gpost3 T g c) := by
  obtain ⟨a1, a2, a3, a4, a5, a6, a7, a8, a9⟩ := axv T.nz g
  obtain ⟨b1, b2, b3, b4, b5, b6, b7, b8, b9⟩ := axv T.ny g
  obtain ⟨d1, d2, d3, d4, d5, d6, d7, d8, d9⟩ := axv T.nx g
  simp only [edgePosts3, edgeDirs3, List.map_cons, List.map_nil, gpost3, neg_neg, neg_zero, diag3_eq,
    a1, a2, a3, a4, a5, a6, a7, a8, a9, b1, b2, b3, b4, b5, b6, b7, b8, b9, d1, d2, d3, d4, d5, d6, d7, d8, d9,
    send_to_0_py_px_type, recv_from_0_ny_nx_type, send_to_0_ny_px_type, recv_from_0_py_nx_type,
    send_to_0_py_nx_type, recv_from_0_ny_px_type, send_to_0_ny_nx_type, recv_from_0_py_px_type,
    send_to_pz_0_px_type, recv_from_nz_0_nx_type, send_to_nz_0_px_type, recv_from_pz_0_nx_type,
    send_to_pz_0_nx_type, recv_from_nz_0_px_type, send_to_nz_0_nx_type, recv_from_pz_0_px_type,
    send_to_pz_py_0_type, recv_from_nz_ny_0_type, send_to_nz_py_0_type, recv_from_pz_ny_0_type,
    send_to_pz_ny_0_type, recv_from_nz_py_0_type, send_to_nz_ny_0_type, recv_from_pz_py_0_type,
    fz1, fy1, fx1, fz2, fy2, fx2]

theorem vertexPosts3_eq {T : Cart3} {g : ℕ} (c : C3) :
    vertexPosts3 T g c = vertexDirs3.map (gpost3 T g c) := by
  obtain ⟨a1, a2, a3, a4, a5, a6, a7, a8, a9⟩ := axv T.nz g
  obtain ⟨b1, b2, b3, b4, b5, b6, b7, b8, b9⟩ := axv T.ny g
  obtain ⟨d1, d2, d3, d4, d5, d6, d7, d8, d9⟩ := axv T.nx g
  simp only [vertexPosts3, vertexDirs3, List.map_cons, List.map_nil, gpost3, neg_neg, neg_zero, diag3_eq,
    a1, a2, a3, a4, a5, a6, a7, a8, a9, b1, b2, b3, b4, b5, b6, b7, b8, b9, d1, d2, d3, d4, d5, d6, d7, d8, d9,
    send_to_pz_py_px_type, recv_from_nz_ny_nx_type, send_to_nz_py_px_type, recv_from_pz_ny_nx_type,
    send_to_pz_ny_px_type, recv_from_nz_py_nx_type, send_to_pz_py_nx_type, recv_from_nz_ny_px_type,
    send_to_nz_ny_px_type, recv_from_pz_py_nx_type, send_to_nz_py_nx_type, recv_from_pz_ny_px_type,
    send_to_pz_ny_nx_type, recv_from_nz_py_px_type, send_to_nz_ny_nx_type, recv_from_pz_py_px_type,
    fz1, fy1, fx1, fz2, fy2, fx2]

theorem posts3_eq {T : Cart3} {g : ℕ} (full : Bool) {c : C3} (hc : Valid3 T c) :
    posts3 T g full c = (dirs3 full).map (gpost3 T g c) := by
  unfold posts3 dirs3
  cases full
  · simp only [Bool.false_eq_true, if_false]
    exact facePosts3_eq hc
  · simp only [if_true, List.map_append]
    rw [facePosts3_eq hc, edgePosts3_eq, vertexPosts3_eq]

theorem dirs3_spec {full : Bool} {s : C3} :
    s ∈ dirs3 full ↔ Dir1 s.1 ∧ Dir1 s.2.1 ∧ Dir1 s.2.2 ∧ dirRank s ≠ 0 ∧ (full = false → dirRank s = 1) := by
  constructor
  · intro h
    cases full
    · revert s; unfold dirs3 faceDirs3 dirRank Dir1; simp
    · revert s; unfold dirs3 faceDirs3 edgeDirs3 vertexDirs3 dirRank Dir1; simp
  · obtain ⟨a, b, c⟩ := s
    rintro ⟨ha, hb, hc, h0, h1⟩
    simp only at ha hb hc
    rcases ha with rfl | rfl | rfl <;> rcases hb with rfl | rfl | rfl <;> rcases hc with rfl | rfl | rfl <;>
      cases full <;> revert h0 h1 <;> decide

theorem dirRank_neg (s : C3) : dirRank (-s.1, -s.2.1, -s.2.2) = dirRank s := by
  unfold dirRank; simp

theorem dirRank_zero {s : C3} : dirRank s = 0 ↔ s.1 = 0 ∧ s.2.1 = 0 ∧ s.2.2 = 0 := by
  unfold dirRank; split_ifs <;> simp_all

theorem gpost3_mirror {T : Cart3} {g : ℕ} {s r k : C3} (hs : Valid3 T s) (hr : Valid3 T r) :
    (gpost3 T g s k).sendTo = some r ↔ (gpost3 T g r k).recvFrom = some s := nbr3_symm hs hr

theorem mem_ghostMsgs3 {T : Cart3} {g : ℕ} {full : Bool} {m : Msg C3 C3} :
    m ∈ ghostMsgs3 T g full ↔ ∃ s r k, Valid3 T s ∧ Valid3 T r ∧ k ∈ dirs3 full ∧ nbr3 T s k = some r ∧
      m = ⟨s, r, (gpost3 T g s k).sendIx, (gpost3 T g r k).recvIx⟩ := by
  unfold ghostMsgs3
  rw [allMsgs_congr (q := fun c => (dirs3 full).map (gpost3 T g c)) (fun r hr => posts3_eq full (mem_ranks3.1 hr))]
  rw [mem_allMsgs_spmd (ranks3 T) (dirs3 full) (gpost3 T g)
    (fun s hs r hr k _ => gpost3_mirror (mem_ranks3.1 hs) (mem_ranks3.1 hr))]
  constructor
  · rintro ⟨s, hs, r, hr, k, hk, h, rfl⟩
    exact ⟨s, r, k, mem_ranks3.1 hs, mem_ranks3.1 hr, hk, h, rfl⟩
  · rintro ⟨s, r, k, hs, hr, hk, h, rfl⟩
    exact ⟨s, mem_ranks3.2 hs, r, mem_ranks3.2 hr, k, hk, h, rfl⟩

open Classical in
/-- the final arrays -/
noncomputable def haloAll3 {α : Type} (T : Cart3) (g : ℕ) (full : Bool) (w : World C3 C3 α) : World C3 C3 α :=
  fun c p => if Valid3 T c ∧ InArr3 T g p then halo3 T g full w c p else w c p

theorem haloAll3_at {α : Type} {T : Cart3} {g : ℕ} {full : Bool} {w : World C3 C3 α} {c p : C3}
    (hc : Valid3 T c) (hp : InArr3 T g p) : haloAll3 T g full w c p = halo3 T g full w c p := by
  unfold haloAll3; rw [if_pos ⟨hc, hp⟩]

theorem ghost3_exchSpec {α : Type} {T : Cart3} {g : ℕ} (hz : g ≤ T.nz) (hy : g ≤ T.ny) (hx : g ≤ T.nx)
    (full : Bool) (w : World C3 C3 α) :
    ExchSpec (ghostMsgs3 T g full) w (haloAll3 T g full w) := by
  refine ⟨?_, ?_, ?_, ?_⟩
  · intro m hm
    rw [mem_ghostMsgs3] at hm
    obtain ⟨s, r, k, -, -, -, -, rfl⟩ := hm
    simp [gpost3, subIx_eq]
  · intro m hm p hp
    rw [mem_ghostMsgs3] at hm
    obtain ⟨s, r, k, hs, hr, hk, hnb, rfl⟩ := hm
    simp only [gpost3, subIx_eq] at hp
    rw [List.zip_map', List.mem_map] at hp
    obtain ⟨q, hq, rfl⟩ := hp
    rw [mem_box] at hq
    rw [dirs3_spec] at hk
    obtain ⟨k1, k2, k3, k4, k5⟩ := hk
    obtain ⟨q1, q2, q3, q4, q5, q6⟩ := hq
    have rz := axRecv_range k1 q1 q2
    have ry := axRecv_range k2 q3 q4
    have rx := axRecv_range k3 q5 q6
    have zz := axRecv_zone k1 q1 q2
    have zy := axRecv_zone k2 q3 q4
    have zx := axRecv_zone k3 q5 q6
    simp only
    rw [haloAll3_at hr ⟨rz.1, rz.2, ry.1, ry.2, rx.1, rx.2⟩]
    unfold halo3
    simp only [zz, zy, zx, dirRank_neg]
    rw [if_neg]
    · rw [nbr3_symm hs hr] at hnb
      rw [hnb]
      simp only
      rw [axSend_eq k1, axSend_eq k2, axSend_eq k3]
      congr 1
      refine Prod.ext ?_ (Prod.ext ?_ ?_) <;> simp only <;> ring
    · rintro (h | ⟨h1, h2⟩)
      · exact k4 h
      · have := k5 h1; omega
  · intro r i hno
    by_cases hc : Valid3 T r ∧ InArr3 T g i
    · obtain ⟨hr, hin⟩ := hc
      rw [haloAll3_at hr hin]
      unfold halo3
      simp only
      split
      · rfl
      · rename_i hcond
        cases hn : nbr3 T r (zone g T.nz i.1, zone g T.ny i.2.1, zone g T.nx i.2.2) with
        | none => rfl
        | some d =>
          exfalso
          have hd : Valid3 T d := nbr3_valid hr.pos.1 hr.pos.2.1 hr.pos.2.2 hn
          have hn' := (nbr3_symm hr hd).1 hn
          simp only at hn'
          have z1 := zone_dir g T.nz i.1
          have z2 := zone_dir g T.ny i.2.1
          have z3 := zone_dir g T.nx i.2.2
          obtain ⟨i1, i2, i3, i4, i5, i6⟩ := hin
          have c1 := axRecv_cover (g := g) (n := T.nz) i1 i2
          have c2 := axRecv_cover (g := g) (n := T.ny) i3 i4
          have c3 := axRecv_cover (g := g) (n := T.nx) i5 i6
          have hk : ((-zone g T.nz i.1, -zone g T.ny i.2.1, -zone g T.nx i.2.2) : C3) ∈ dirs3 full := by
            rw [dirs3_spec]
            rw [show dirRank (-zone (↑g) (↑T.nz) i.1, -zone (↑g) (↑T.ny) i.2.1, -zone (↑g) (↑T.nx) i.2.2)
              = dirRank (zone (↑g) (↑T.nz) i.1, zone (↑g) (↑T.ny) i.2.1, zone (↑g) (↑T.nx) i.2.2) from
              dirRank_neg (zone (↑g) (↑T.nz) i.1, zone (↑g) (↑T.ny) i.2.1, zone (↑g) (↑T.nx) i.2.2)]
            unfold Dir1 at *
            refine ⟨by simp only; omega, by simp only; omega, by simp only; omega, ?_, ?_⟩
            · exact fun h => hcond (Or.inl h)
            · intro hf
              have h1 : ¬ 2 ≤ dirRank _ := fun h => hcond (Or.inr ⟨hf, h⟩)
              have h2 : dirRank _ ≠ 0 := fun h => hcond (Or.inl h)
              omega
          refine hno _ (mem_ghostMsgs3.2 ⟨d, r, _, hd, hr, hk, hn', rfl⟩) rfl ?_
          simp only [gpost3, subIx_eq, List.mem_map]
          refine ⟨(i.1 - axRecv T.nz g (-zone g T.nz i.1), i.2.1 - axRecv T.ny g (-zone g T.ny i.2.1),
            i.2.2 - axRecv T.nx g (-zone g T.nx i.2.2)), ?_, ?_⟩
          · rw [mem_box]
            exact ⟨c1.1, c1.2, c2.1, c2.2, c3.1, c3.2⟩
          · refine Prod.ext ?_ (Prod.ext ?_ ?_) <;> simp only <;> ring
    · unfold haloAll3
      rw [if_neg hc]
  · intro m hm i hi m' hm' hd hi'
    rw [mem_ghostMsgs3] at hm hm'
    obtain ⟨s, r, k, hs, hr, hk, hnb, rfl⟩ := hm
    obtain ⟨s', r', k', hs', hr', hk', hnb', rfl⟩ := hm'
    simp only [gpost3, subIx_eq, List.mem_map] at hi hi'
    obtain ⟨q, hq, rfl⟩ := hi
    obtain ⟨q', hq', he⟩ := hi'
    rw [mem_box] at hq hq'
    rw [dirs3_spec] at hk hk'
    obtain ⟨k1, k2, k3, k4, k5⟩ := hk
    obtain ⟨l1, l2, l3, l4, l5⟩ := hk'
    obtain ⟨q1, q2, q3, q4, q5, q6⟩ := hq
    obtain ⟨t1, t2, t3, t4, t5, t6⟩ := hq'
    simp only [Prod.mk.injEq] at he
    have zz := axRecv_zone l1 t1 t2
    have zy := axRecv_zone l2 t3 t4
    have zx := axRecv_zone l3 t5 t6
    rw [he.1, axSend_zone hz k1 q1 q2] at zz
    rw [he.2.1, axSend_zone hy k2 q3 q4] at zy
    rw [he.2.2, axSend_zone hx k3 q5 q6] at zx
    apply l4
    rw [dirRank_zero]
    omega

end Sopht
