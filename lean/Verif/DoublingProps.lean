import Verif.DoublingLemmas
import Verif.CartProps
import Verif.Ghost2DProps

/-!
# Domain doubling in 2D: properties C42, C43, C45

The doubled domain has `2 gy × 2 gx` cells; rank `c` of the topology owns the block of `2 ny × 2 nx` cells that starts at
`(c.1 * 2 ny, c.2 * 2 nx)` (mpi4py-fft distributes the array over the same topology; trusted).
-/

namespace Sopht

/-- `q` is an element of the local array of the doubled domain. -/
def InDbl2 (T : Cart2) (q : C2) : Prop := 0 ≤ q.1 ∧ q.1 < 2 * T.ny ∧ 0 ≤ q.2 ∧ q.2 < 2 * T.nx

/-- Global index, in the doubled domain, of element `q` of the local doubled array of rank `c`. -/
def dblIx2 (T : Cart2) (c q : C2) : C2 := (c.1 * (2 * T.ny) + q.1, c.2 * (2 * T.nx) + q.2)

section D2
variable {T : Cart2} {α : Type} {gy gx py px : ℕ} {per : Bool}

open Classical in
/-- contents of both arrays after `copy_to_doubled_domain` -/
noncomputable def toTarget2 (T : Cart2) (g : ℕ) (w : World C2 (C2 ⊕ C2) α) : World C2 (C2 ⊕ C2) α
  | c, .inl p => w c (.inl p)
  | c, .inr q =>
    if Valid2 T c ∧ InDbl2 T q ∧ InDomain2 T (dblIx2 T c q) then
      w ((dblIx2 T c q).1 / T.ny, (dblIx2 T c q).2 / T.nx)
        (.inl ((g : ℤ) + (dblIx2 T c q).1 % T.ny, (g : ℤ) + (dblIx2 T c q).2 % T.nx))
    else w c (.inr q)

open Classical in
/-- contents of both arrays after `copy_from_doubled_domain` -/
noncomputable def fromTarget2 (T : Cart2) (g : ℕ) (w : World C2 (C2 ⊕ C2) α) : World C2 (C2 ⊕ C2) α
  | c, .inr q => w c (.inr q)
  | c, .inl p =>
    if Valid2 T c ∧ Inner2 T g p then
      w (c.1 / 2, c.2 / 2) (.inr (T.ny * (c.1 % 2) + (p.1 - g), T.nx * (c.2 % 2) + (p.2 - g)))
    else w c (.inl p)

theorem half_valid2 {c : C2} (hc : Valid2 T c) : Valid2 T (c.1 / 2, c.2 / 2) := by
  obtain ⟨h1, h2, h3, h4⟩ := hc
  refine ⟨?_, ?_, ?_, ?_⟩ <;> simp only <;> omega

theorem block_lt {P n N : ℕ} (hN : P * n = N) {s b : ℤ} (hs1 : s < P) (hb1 : b < n) : s * n + b < N := by
  have : (s + 1) * n ≤ P * n := mul_le_mul_of_nonneg_right (by omega) (by omega)
  have e : ((P * n : ℕ) : ℤ) = (N : ℤ) := by rw [hN]
  push_cast at e
  linarith [this, add_mul s 1 (n : ℤ)]

theorem toSpec2 {g : ℕ} {d : Fin 2} (h : SlabOK T d) (hY : T.py * T.ny = T.gy) (hX : T.px * T.nx = T.gx)
    (w : World C2 (C2 ⊕ C2) α) : ExchSpec (toMsgs2 T g d) w (toTarget2 T g w) := by
  refine ⟨?_, ?_, ?_, ?_⟩
  · intro m hm
    obtain ⟨s, -, -, rfl⟩ := (mem_toMsgs2 h m).1 hm
    simp
  · intro m hm p hp
    obtain ⟨s, hs, hr, rfl⟩ := (mem_toMsgs2 h m).1 hm
    simp only at hp ⊢
    rw [List.zip_map', List.mem_map] at hp
    obtain ⟨b, hb, rfl⟩ := hp
    rw [mem_rect] at hb
    obtain ⟨b1, b2, b3, b4⟩ := hb
    have a1 := dbl_axis (P := T.py) (n := T.ny) (s := s.1) (r := s.1 / 2) (k := s.1 % 2) (b := b.1) (by omega) b1 b2
    have a2 := dbl_axis (P := T.px) (n := T.nx) (s := s.2) (r := s.2 / 2) (k := s.2 % 2) (b := b.2) (by omega) b3 b4
    have e1 : s.1 / 2 * (2 * (T.ny : ℤ)) + (T.ny * (s.1 % 2) + b.1) = s.1 * T.ny + b.1 := by
      have := Int.mul_ediv_add_emod s.1 2
      calc _ = (2 * (s.1 / 2) + s.1 % 2) * T.ny + b.1 := by ring
        _ = _ := by rw [this]
    have e2 : s.2 / 2 * (2 * (T.nx : ℤ)) + (T.nx * (s.2 % 2) + b.2) = s.2 * T.nx + b.2 := by
      have := Int.mul_ediv_add_emod s.2 2
      calc _ = (2 * (s.2 / 2) + s.2 % 2) * T.nx + b.2 := by ring
        _ = _ := by rw [this]
    obtain ⟨s1, s2, s3, s4⟩ := hs
    have l1 := block_lt hY s2 b2
    have l2 := block_lt hX s4 b4
    have p1 : 0 ≤ s.1 * T.ny := mul_nonneg s1 (by omega)
    have p2 : 0 ≤ s.2 * T.nx := mul_nonneg s3 (by omega)
    have k1 : s.1 % 2 = 0 ∨ s.1 % 2 = 1 := by omega
    have k2 : s.2 % 2 = 0 ∨ s.2 % 2 = 1 := by omega
    simp only [toTarget2]
    rw [if_pos]
    · simp only [dblIx2]
      rw [a1.1, a1.2, a2.1, a2.2]
    · refine ⟨hr, ?_, ?_⟩
      · rcases k1 with k1 | k1 <;> rcases k2 with k2 | k2 <;> simp only [InDbl2, k1, k2] <;> omega
      · simp only [InDomain2, dblIx2]
        rw [e1, e2]
        omega
  · intro c i hno
    cases i with
    | inl p => rfl
    | inr q =>
      simp only [toTarget2]
      split
      · rename_i hq
        exfalso
        obtain ⟨⟨c1, c2, c3, c4⟩, ⟨q1, q2, q3, q4⟩, hG1, hG2, hG3, hG4⟩ := hq
        simp only [dblIx2] at hG1 hG2 hG3 hG4
        obtain ⟨u1, u2, u3, u4, u5, u6, u7⟩ := dbl_axis_inv (r := c.1) q1 q2
        obtain ⟨v1, v2, v3, v4, v5, v6, v7⟩ := dbl_axis_inv (r := c.2) q3 q4
        have hny : (0 : ℤ) < T.ny := by omega
        have hnx : (0 : ℤ) < T.nx := by omega
        have s1 : 2 * c.1 + q.1 / T.ny < T.py := by
          rw [← u1]
          apply Int.ediv_lt_of_lt_mul hny
          rw [← hY] at hG2
          push_cast at hG2
          exact hG2
        have s2 : 2 * c.2 + q.2 / T.nx < T.px := by
          rw [← v1]
          apply Int.ediv_lt_of_lt_mul hnx
          rw [← hX] at hG4
          push_cast at hG4
          exact hG4
        have m := (mem_toMsgs2 (g := g) h ⟨(2 * c.1 + q.1 / T.ny, 2 * c.2 + q.2 / T.nx), c, _, _⟩).2
          ⟨(2 * c.1 + q.1 / T.ny, 2 * c.2 + q.2 / T.nx), ⟨by simp only; omega, s1, by simp only; omega, s2⟩,
            half_valid2 ⟨by simp only; omega, s1, by simp only; omega, s2⟩,
            by
              congr 1
              refine Prod.ext ?_ ?_ <;> simp only <;> omega⟩
        refine hno _ m rfl ?_
        simp only
        rw [List.mem_map]
        refine ⟨(q.1 % T.ny, q.2 % T.nx), ?_, ?_⟩
        · rw [mem_rect]; exact ⟨u6, u7, v6, v7⟩
        · have w1 : (2 * c.1 + q.1 / T.ny) % 2 = q.1 / T.ny := by omega
          have w2 : (2 * c.2 + q.2 / T.nx) % 2 = q.2 / T.nx := by omega
          simp only
          rw [w1, w2, u5, v5]
      · rfl
  · intro m hm i hi m' hm' hsd hi'
    obtain ⟨s, hs, hr, rfl⟩ := (mem_toMsgs2 h m).1 hm
    obtain ⟨s', hs', hr', rfl⟩ := (mem_toMsgs2 h m').1 hm'
    simp only [List.mem_map] at hi hi'
    obtain ⟨_, _, rfl⟩ := hi
    obtain ⟨_, _, e⟩ := hi'
    cases e

theorem fromSpec2 {g : ℕ} {d : Fin 2} (h : SlabOK T d)
    (w : World C2 (C2 ⊕ C2) α) : ExchSpec (fromMsgs2 T g d) w (fromTarget2 T g w) := by
  refine ⟨?_, ?_, ?_, ?_⟩
  · intro m hm
    obtain ⟨s, -, -, rfl⟩ := (mem_fromMsgs2 h m).1 hm
    simp
  · intro m hm p hp
    obtain ⟨s, hs, hr, rfl⟩ := (mem_fromMsgs2 h m).1 hm
    simp only at hp ⊢
    rw [List.zip_map', List.mem_map] at hp
    obtain ⟨b, hb, rfl⟩ := hp
    rw [mem_rect] at hb
    simp only [fromTarget2]
    rw [if_pos ⟨hs, by simp only [Inner2]; omega⟩]
    congr 2
    refine Prod.ext ?_ ?_ <;> simp only <;> ring
  · intro c i hno
    cases i with
    | inr q => rfl
    | inl p =>
      simp only [fromTarget2]
      split
      · rename_i hq
        exfalso
        obtain ⟨hc, hi1, hi2, hi3, hi4⟩ := hq
        refine hno _ ((mem_fromMsgs2 (g := g) h _).2 ⟨c, hc, half_valid2 hc, rfl⟩) rfl ?_
        simp only [List.mem_map]
        refine ⟨(p.1 - g, p.2 - g), ?_, ?_⟩
        · rw [mem_rect]; simp only; omega
        · congr 1
          refine Prod.ext ?_ ?_ <;> simp only <;> ring
      · rfl
  · intro m hm i hi m' hm' hsd hi'
    obtain ⟨s, hs, hr, rfl⟩ := (mem_fromMsgs2 h m).1 hm
    obtain ⟨s', hs', hr', rfl⟩ := (mem_fromMsgs2 h m').1 hm'
    simp only [List.mem_map] at hi hi'
    obtain ⟨_, _, rfl⟩ := hi
    obtain ⟨_, _, e⟩ := hi'
    cases e

/-! ### C45 -/

/-- C45: for an integer ghost size the 2D communicator raises ValueError exactly when both axes are distributed; otherwise it
is built for the distributed axis. -/
theorem doublingInit2_valueError_iff (g : ℤ) (T : Cart2) :
    doublingInit2 (.int g) T = .error .valueError ↔ T.py ≠ 1 ∧ T.px ≠ 1 := by
  unfold doublingInit2 fieldCommCheck distDims2
  by_cases hy : T.py = 1 <;> by_cases hx : T.px = 1 <;> simp [PyNum.isInt, hy, hx]

/-- C45: in the other cases construction succeeds, with the axis that has more than one rank (axis 0 if there is none). -/
theorem doublingInit2_accepts (g : ℤ) (T : Cart2) (h : T.py = 1 ∨ T.px = 1) :
    doublingInit2 (.int g) T = .ok (if T.px = 1 then 0 else 1) := by
  unfold doublingInit2 fieldCommCheck distDims2
  by_cases hy : T.py = 1 <;> by_cases hx : T.px = 1 <;> simp [PyNum.isInt, hy, hx]
  omega

example : doublingInit2 (.int 2) ⟨8, 8, 2, 4, 4, 2, false⟩ = .error .valueError ∧
    doublingInit2 (.int 2) ⟨9, 8, 3, 1, 3, 8, false⟩ = .ok 0 := by decide

/-! ### C42, C43 -/

/-- No copy can hang or be truncated: every message has its partner, of the same size, in both directions. -/
theorem doubling2_matched {gn : PyNum} {d : Fin 2} (hd : doublingInit2 gn T = .ok d)
    (hp : T.per = false ∨ topo2 T d % 2 = 0) (g : ℕ) :
    AllMatched (ranks2 T) (toPosts2 T g d) ∧ AllMatched (ranks2 T) (fromPosts2 T g d) := by
  have h : SlabOK T d := ⟨doublingInit2_ok hd, hp⟩
  have key : ∀ c : C2, (fun c => at2 d c % 2) c ∈ ([0, 1] : List ℤ) := fun c => by
    have : at2 d c % 2 = 0 ∨ at2 d c % 2 = 1 := by omega
    simpa using this
  have mir : ∀ s ∈ ranks2 T, ∀ r ∈ ranks2 T, ∀ k ∈ ([0, 1] : List ℤ), ((fun c => at2 d c % 2) s = k ∧ tDest2 T d s = some r) ↔
      tSrc2 T d r k = some s := fun s hs r hr k hk => mirror2 h (mem_ranks2.1 hs) (mem_ranks2.1 hr) hk
  have hdst : ∀ s ∈ ranks2 T, ∀ r, tDest2 T d s = some r → r ∈ ranks2 T := by
    intro s hs r e
    rw [mem_ranks2] at *
    rw [tDest2_eq h hs, Option.some.injEq] at e
    exact e ▸ half_valid2 hs
  have hsrc : ∀ s ∈ ranks2 T, ∀ k ∈ ([0, 1] : List ℤ), ∀ r, tSrc2 T d s k = some r → r ∈ ranks2 T := by
    intro s hs k hk r e
    rw [mem_ranks2] at *
    unfold tSrc2 at e
    split at e
    · rename_i hl
      unfold shiftDst2 at e
      obtain ⟨s1, s2, s3, s4⟩ := hs
      have hk' : k = 0 ∨ k = 1 := by simpa using hk
      rcases h with ⟨⟨rfl, hx⟩ | ⟨rfl, hy⟩, hp⟩
      · simp only [topo2, if_true] at hp
        simp only [at2, topo2, if_true] at e hl
        rw [half_dst hp s1 hl hk'] at e
        split at e
        · simp only [Option.map_some, put2, if_true, Option.some.injEq] at e
          subst e; exact ⟨by simp only; omega, by assumption, s3, s4⟩
        · simp at e
      · simp only [topo2, h10, if_false] at hp
        simp only [at2, topo2, h10, if_false] at e hl
        rw [half_dst hp s3 hl hk'] at e
        split at e
        · simp only [Option.map_some, put2, h10, if_false, Option.some.injEq] at e
          subst e; exact ⟨s1, s2, by simp only; omega, by assumption⟩
        · simp at e
    · simp at e
  constructor
  · have := allMatched_fanIn (ι := C2 ⊕ C2) (ranks := ranks2 T) (by decide) key mir hdst hsrc
      (sIx := actualBuf2 T g) (rIx := tBuf2 T d) (fun k => by simp [actualBuf2, tBuf2, subIx2_eq])
    refine ⟨?_, ?_⟩
    · intro s hs p hp
      unfold toPosts2 at hp
      have e0 : 2 * at2 d s - at2 d s = at2 d s + 0 := by ring
      have e1 : 2 * at2 d s + 1 - at2 d s = at2 d s + 1 := by ring
      by_cases hl : 2 * at2 d s < topo2 T d
      · simp only [hl, if_true, List.mem_cons, List.not_mem_nil, or_false, e0, e1] at hp
        have s0 := hsrc s hs 0 (by simp)
        have s1 := hsrc s hs 1 (by simp)
        simp only [tSrc2, hl, if_true] at s0 s1
        rcases hp with rfl | rfl | rfl
        · exact ⟨hdst s hs, by simp⟩
        · exact ⟨by simp, s0⟩
        · exact ⟨by simp, s1⟩
      · simp only [hl, if_false, List.mem_cons, List.not_mem_nil, or_false] at hp
        subst hp
        exact ⟨hdst s hs, by simp⟩
    · intro s hs r hr
      rw [toPosts2_sends, toPosts2_recvs]
      exact this.2 s hs r hr
  · have := allMatched_fanOut (ι := C2 ⊕ C2) (ranks := ranks2 T) (by decide) key mir hdst hsrc
      (rIx := actualBuf2 T g) (sIx := tBuf2 T d) (fun k => by simp [actualBuf2, tBuf2, subIx2_eq])
    refine ⟨?_, ?_⟩
    · intro s hs p hp
      unfold fromPosts2 at hp
      have e0 : 2 * at2 d s - at2 d s = at2 d s + 0 := by ring
      have e1 : 2 * at2 d s + 1 - at2 d s = at2 d s + 1 := by ring
      by_cases hl : 2 * at2 d s < topo2 T d
      · simp only [hl, if_true, List.cons_append, List.nil_append, List.mem_cons, List.not_mem_nil, or_false, e0, e1] at hp
        have s0 := hsrc s hs 0 (by simp)
        have s1 := hsrc s hs 1 (by simp)
        simp only [tSrc2, hl, if_true] at s0 s1
        rcases hp with rfl | rfl | rfl
        · exact ⟨s0, by simp⟩
        · exact ⟨s1, by simp⟩
        · exact ⟨by simp, hdst s hs⟩
      · simp only [hl, if_false, List.nil_append, List.mem_cons, List.not_mem_nil, or_false] at hp
        subst hp
        exact ⟨by simp, hdst s hs⟩
    · intro s hs r hr
      rw [fromPosts2_sends, fromPosts2_recvs]
      exact this.2 s hs r hr

/-- C42: after `copy_to_doubled_domain` the doubled domain holds the global field in its lower quarter, wherever its cells
live, and everything else keeps its value — for every number of ranks (odd or even) along the slab axis. -/
theorem copyTo2_correct (hT : mkCart2 gy gx py px per = .ok T) {gn : PyNum} {d : Fin 2} (hd : doublingInit2 gn T = .ok d)
    (hp : per = false ∨ topo2 T d % 2 = 0) (g : ℕ) (F : C2 → α) (f D : World C2 C2 α)
    (hf : ∀ c, Valid2 T c → ∀ p, Inner2 T g p → f c p = F (globalIx2 T g c p))
    {sched : List Ev} (hs : Complete (toMsgs2 T g d) sched) {c q : C2} (hc : Valid2 T c) (hq : InDbl2 T q) :
    (InDomain2 T (dblIx2 T c q) → copyTo2 T g d f D sched c q = F (dblIx2 T c q)) ∧
    (¬ InDomain2 T (dblIx2 T c q) → copyTo2 T g d f D sched c q = D c q) := by
  obtain ⟨-, -, -, -, e5, hY, hX⟩ := construct2_ok hT
  subst e5
  have h : SlabOK T d := ⟨doublingInit2_ok hd, hp⟩
  unfold copyTo2
  rw [runNet_eq (toSpec2 h hY hX _) hs]
  simp only [toTarget2]
  constructor
  · intro hG
    rw [if_pos ⟨hc, hq, hG⟩]
    simp only [joinW, Sum.elim_inl]
    obtain ⟨g1, g2, g3, g4⟩ := hG
    obtain ⟨q1, q2, q3, q4⟩ := hq
    have hny : (0 : ℤ) < T.ny := by omega
    have hnx : (0 : ℤ) < T.nx := by omega
    rw [← hY] at g2
    rw [← hX] at g4
    push_cast at g2 g4
    have m1 := Int.emod_nonneg (dblIx2 T c q).1 hny.ne'
    have m2 := Int.emod_lt_of_pos (dblIx2 T c q).1 hny
    have m3 := Int.emod_nonneg (dblIx2 T c q).2 hnx.ne'
    have m4 := Int.emod_lt_of_pos (dblIx2 T c q).2 hnx
    rw [hf]
    · congr 1
      have d1 := Int.mul_ediv_add_emod (dblIx2 T c q).1 T.ny
      have d2 := Int.mul_ediv_add_emod (dblIx2 T c q).2 T.nx
      unfold globalIx2
      refine Prod.ext ?_ ?_ <;> simp only
      · linarith [mul_comm ((dblIx2 T c q).1 / (T.ny : ℤ)) T.ny]
      · linarith [mul_comm ((dblIx2 T c q).2 / (T.nx : ℤ)) T.nx]
    · exact ⟨Int.ediv_nonneg g1 hny.le, Int.ediv_lt_of_lt_mul hny g2, Int.ediv_nonneg g3 hnx.le, Int.ediv_lt_of_lt_mul hnx g4⟩
    · simp only [Inner2]; omega
  · intro hG
    rw [if_neg (fun hh => hG hh.2.2)]
    rfl

/-- C42: copying into a zeroed doubled domain zero-pads. -/
theorem copyTo2_zero_pads [Zero α] (hT : mkCart2 gy gx py px per = .ok T) {gn : PyNum} {d : Fin 2} (hd : doublingInit2 gn T = .ok d)
    (hp : per = false ∨ topo2 T d % 2 = 0) (g : ℕ) (F : C2 → α) (f : World C2 C2 α)
    (hf : ∀ c, Valid2 T c → ∀ p, Inner2 T g p → f c p = F (globalIx2 T g c p))
    {sched : List Ev} (hs : Complete (toMsgs2 T g d) sched) {c q : C2} (hc : Valid2 T c) (hq : InDbl2 T q) :
    copyTo2 T g d f (fun _ _ => 0) sched c q
      = if (dblIx2 T c q).1 < gy ∧ (dblIx2 T c q).2 < gx then F (dblIx2 T c q) else 0 := by
  obtain ⟨e1, e2, -⟩ := construct2_ok hT
  have := copyTo2_correct hT hd hp g F f (fun _ _ => 0) hf hs hc hq
  have p1 : 0 ≤ (dblIx2 T c q).1 := add_nonneg (mul_nonneg hc.1 (by omega)) hq.1
  have p2 : 0 ≤ (dblIx2 T c q).2 := add_nonneg (mul_nonneg hc.2.2.1 (by omega)) hq.2.2.1
  by_cases hG : (dblIx2 T c q).1 < gy ∧ (dblIx2 T c q).2 < gx
  · rw [if_pos hG]; exact this.1 ⟨p1, by rw [e1]; exact hG.1, p2, by rw [e2]; exact hG.2⟩
  · rw [if_neg hG]; exact this.2 (fun h => hG ⟨by rw [← e1]; exact h.2.1, by rw [← e2]; exact h.2.2.2⟩)

/-- C43: `copy_from_doubled_domain` brings the value of every global cell back to the inner cells of its owner and leaves the
ghost cells alone. -/
theorem copyFrom2_correct (hT : mkCart2 gy gx py px per = .ok T) {gn : PyNum} {d : Fin 2} (hd : doublingInit2 gn T = .ok d)
    (hp : per = false ∨ topo2 T d % 2 = 0) (g : ℕ) (H : C2 → α) (D f : World C2 C2 α)
    (hD : ∀ c, Valid2 T c → ∀ q, InDbl2 T q → D c q = H (dblIx2 T c q))
    {sched : List Ev} (hs : Complete (fromMsgs2 T g d) sched) {c p : C2} (hc : Valid2 T c) :
    (Inner2 T g p → copyFrom2 T g d D f sched c p = H (globalIx2 T g c p)) ∧
    (¬ Inner2 T g p → copyFrom2 T g d D f sched c p = f c p) := by
  obtain ⟨-, -, -, -, e5, -, -⟩ := construct2_ok hT
  subst e5
  have h : SlabOK T d := ⟨doublingInit2_ok hd, hp⟩
  unfold copyFrom2
  rw [runNet_eq (fromSpec2 h _) hs]
  simp only [fromTarget2]
  constructor
  · intro hI
    rw [if_pos ⟨hc, hI⟩]
    simp only [joinW, Sum.elim_inr]
    obtain ⟨i1, i2, i3, i4⟩ := hI
    have k1 : c.1 % 2 = 0 ∨ c.1 % 2 = 1 := by omega
    have k2 : c.2 % 2 = 0 ∨ c.2 % 2 = 1 := by omega
    rw [hD _ (half_valid2 hc)]
    · congr 1
      have d1 := Int.mul_ediv_add_emod c.1 2
      have d2 := Int.mul_ediv_add_emod c.2 2
      unfold globalIx2 dblIx2
      refine Prod.ext ?_ ?_ <;> simp only
      · calc _ = (2 * (c.1 / 2) + c.1 % 2) * T.ny + p.1 - g := by ring
          _ = _ := by rw [d1]
      · calc _ = (2 * (c.2 / 2) + c.2 % 2) * T.nx + p.2 - g := by ring
          _ = _ := by rw [d2]
    · rcases k1 with k1 | k1 <;> rcases k2 with k2 | k2 <;> simp only [InDbl2, k1, k2] <;> omega
  · intro hI
    rw [if_neg (fun hh => hI hh.2)]
    rfl

/-- C43: copying to the doubled domain and back restores every inner cell of every rank, whatever the doubled array held
before and whichever array receives the result. -/
theorem doubling2_roundtrip (hT : mkCart2 gy gx py px per = .ok T) {gn : PyNum} {d : Fin 2} (hd : doublingInit2 gn T = .ok d)
    (hp : per = false ∨ topo2 T d % 2 = 0) (g : ℕ) (f D f' : World C2 C2 α)
    {s1 s2 : List Ev} (h1 : Complete (toMsgs2 T g d) s1) (h2 : Complete (fromMsgs2 T g d) s2)
    {c p : C2} (hc : Valid2 T c) (hI : Inner2 T g p) :
    copyFrom2 T g d (copyTo2 T g d f D s1) f' s2 c p = f c p := by
  obtain ⟨-, -, -, -, e5, hY, hX⟩ := construct2_ok hT
  subst e5
  have h : SlabOK T d := ⟨doublingInit2_ok hd, hp⟩
  unfold copyFrom2
  rw [runNet_eq (fromSpec2 h _) h2]
  simp only [fromTarget2]
  rw [if_pos ⟨hc, hI⟩]
  simp only [joinW, Sum.elim_inr, copyTo2]
  rw [runNet_eq (toSpec2 h hY hX _) h1]
  simp only [toTarget2]
  obtain ⟨i1, i2, i3, i4⟩ := hI
  obtain ⟨c1, c2, c3, c4⟩ := hc
  have a1 := dbl_axis (P := T.py) (n := T.ny) (s := c.1) (r := c.1 / 2) (k := c.1 % 2) (b := p.1 - g) (by omega) (by omega) (by omega)
  have a2 := dbl_axis (P := T.px) (n := T.nx) (s := c.2) (r := c.2 / 2) (k := c.2 % 2) (b := p.2 - g) (by omega) (by omega) (by omega)
  have e1 : c.1 / 2 * (2 * (T.ny : ℤ)) + (T.ny * (c.1 % 2) + (p.1 - g)) = c.1 * T.ny + (p.1 - g) := by
    have := Int.mul_ediv_add_emod c.1 2
    calc _ = (2 * (c.1 / 2) + c.1 % 2) * T.ny + (p.1 - g) := by ring
      _ = _ := by rw [this]
  have e2 : c.2 / 2 * (2 * (T.nx : ℤ)) + (T.nx * (c.2 % 2) + (p.2 - g)) = c.2 * T.nx + (p.2 - g) := by
    have := Int.mul_ediv_add_emod c.2 2
    calc _ = (2 * (c.2 / 2) + c.2 % 2) * T.nx + (p.2 - g) := by ring
      _ = _ := by rw [this]
  have l1 := block_lt hY c2 (b := p.1 - g) (by omega)
  have l2 := block_lt hX c4 (b := p.2 - g) (by omega)
  have p1 : 0 ≤ c.1 * T.ny := mul_nonneg c1 (by omega)
  have p2 : 0 ≤ c.2 * T.nx := mul_nonneg c3 (by omega)
  have k1 : c.1 % 2 = 0 ∨ c.1 % 2 = 1 := by omega
  have k2 : c.2 % 2 = 0 ∨ c.2 % 2 = 1 := by omega
  rw [if_pos]
  · simp only [dblIx2]
    rw [a1.1, a1.2, a2.1, a2.2]
    simp [joinW]
  · refine ⟨half_valid2 ⟨c1, c2, c3, c4⟩, ?_, ?_⟩
    · rcases k1 with k1 | k1 <;> rcases k2 with k2 | k2 <;> simp only [InDbl2, k1, k2] <;> omega
    · simp only [InDomain2, dblIx2]
      rw [e1, e2]
      omega

/-- C42 (where it fails): on a periodic communicator with an odd number of slabs — a single rank included — a receive is
posted that nobody sends to, so the copy cannot complete. -/
theorem copyTo2_periodic_odd_unmatched {gn : PyNum} {d : Fin 2} (hd : doublingInit2 gn T = .ok d) (hper : T.per = true)
    (hodd : topo2 T d % 2 = 1) (g : ℕ) : ¬ AllMatched (ranks2 T) (toPosts2 T g d) := by
  intro hA
  have h0 := doublingInit2_ok hd
  obtain ⟨k, hk⟩ : ∃ k : ℕ, topo2 T d = 2 * k + 1 := ⟨topo2 T d / 2, by omega⟩
  have hv : ∀ v : ℤ, 0 ≤ v → v < topo2 T d → Valid2 T (put2 d (0, 0) v) := by
    intro v hv0 hv1
    rcases h0 with ⟨rfl, hx⟩ | ⟨rfl, hy⟩
    · simp only [topo2, if_true] at hv1
      simp only [put2, if_true, Valid2]; omega
    · simp only [topo2, h10, if_false] at hv1
      simp only [put2, h10, if_false, Valid2]; omega
  have hat : ∀ v : ℤ, at2 d (put2 d (0, 0) v) = v := by
    intro v
    rcases h0 with ⟨rfl, hx⟩ | ⟨rfl, hy⟩ <;> simp [at2, put2]
  have hput : ∀ v u : ℤ, put2 d (put2 d (0, 0) v) u = put2 d (0, 0) u := by
    intro v u
    rcases h0 with ⟨rfl, hx⟩ | ⟨rfl, hy⟩ <;> simp [put2]
  have hinj : ∀ v u : ℤ, put2 d (0, 0) v = put2 d (0, 0) u → v = u := by
    intro v u e
    have := congrArg (at2 d) e
    rwa [hat, hat] at this
  have hm := hA.2 (put2 d (0, 0) 0) (mem_ranks2.2 (hv 0 le_rfl (by omega))) (put2 d (0, 0) k)
    (mem_ranks2.2 (hv k (by omega) (by omega)))
  have hlen := congrArg List.length hm
  rw [List.length_map, List.length_map] at hlen
  have hl : 2 * (k : ℤ) < topo2 T d := by omega
  have n2 : axisNbr (topo2 T d) true k (2 * k + 1 - k) = some 0 := by
    unfold axisNbr
    rw [if_neg (by omega), if_pos rfl]
    congr 1
    rw [hk]
    have : (k : ℤ) + (2 * k + 1 - k) = ((2 * k + 1 : ℕ) : ℤ) := by push_cast; ring
    rw [this, Int.emod_self]
  have n1 : axisNbr (topo2 T d) true k (2 * k - k) = some (2 * (k : ℤ)) := by
    unfold axisNbr
    rw [if_pos (by omega)]
    congr 1; ring
  have n0 : axisNbr (topo2 T d) true 0 0 = some 0 := by
    unfold axisNbr
    rw [if_pos (by omega)]; rfl
  unfold sendsTo recvsOf toPosts2 at hlen
  have z2 : (0 : ℤ) / 2 + 0 % 2 = 0 := by decide
  simp only [hat, hl, if_true, shiftSrc2, shiftDst2, hper, n1, n2, Option.map_some, hput, mul_zero, z2, neg_zero, n0] at hlen
  have h00 : (0 : ℤ) < topo2 T d := by omega
  simp only [h00, if_true] at hlen
  by_cases hk0 : k = 0
  · subst hk0
    simp at hlen
  · have a1 : ¬ put2 d (0, 0) 0 = put2 d (0, 0) (k : ℤ) := fun e => by have := hinj _ _ e; omega
    have a2 : ¬ put2 d (0, 0) (2 * (k : ℤ)) = put2 d (0, 0) 0 := fun e => by have := hinj _ _ e; omega
    simp [List.filterMap_cons, a1, a2, hput] at hlen

/-- non-vacuity: three slabs, not periodic; rank 1 of the doubled domain holds rows 4..5 (of the third slab) and zeros -/
example : let T : Cart2 := ⟨6, 2, 3, 1, 2, 2, false⟩
    mkCart2 6 2 3 1 false = .ok T ∧ doublingInit2 (.int 1) T = .ok 0 ∧
    copyTo2 T 1 0 (fun c p => 100 * c.1 + 10 * p.1 + p.2) (fun _ _ => 0) [.pick 0, .pick 1, .pick 2, .land 2, .land 0, .land 1] (1, 0) (1, 0) = 221 ∧
    copyTo2 T 1 0 (fun c p => 100 * c.1 + 10 * p.1 + p.2) (fun _ _ => 0) [.pick 0, .pick 1, .pick 2, .land 2, .land 0, .land 1] (1, 0) (2, 0) = 0 := by
  decide

end D2
end Sopht
