import Verif.CartLemmas

/-! # C01–C03: domain decomposition and neighbour tables -/

namespace Sopht

/-! ## C02 -/

/-- C02 (2D): construction raises RuntimeError exactly when an axis does not divide evenly. -/
theorem construct2_refuses_iff (gy gx py px : ℕ) (per : Bool) :
    mkCart2 gy gx py px per = .error .runtimeError ↔ ¬ (py ∣ gy ∧ px ∣ gx) := by
  unfold mkCart2
  rw [Nat.dvd_iff_mod_eq_zero, Nat.dvd_iff_mod_eq_zero]
  split <;> simp <;> omega

/-- C02 (2D): if construction succeeds, local size times topology is the global size, on each axis. -/
theorem construct2_ok {gy gx py px : ℕ} {per : Bool} {T : Cart2} (h : mkCart2 gy gx py px per = .ok T) :
    T.gy = gy ∧ T.gx = gx ∧ T.py = py ∧ T.px = px ∧ T.per = per ∧ T.py * T.ny = T.gy ∧ T.px * T.nx = T.gx := by
  unfold mkCart2 at h
  split at h
  · cases h
  · rename_i hh
    cases h
    simp only [not_or, not_not] at hh
    exact ⟨rfl, rfl, rfl, rfl, rfl, Nat.mul_div_cancel' (Nat.dvd_of_mod_eq_zero hh.1),
      Nat.mul_div_cancel' (Nat.dvd_of_mod_eq_zero hh.2)⟩

/-- C02 (2D): construction succeeds or raises RuntimeError, nothing else. -/
theorem construct2_total (gy gx py px : ℕ) (per : Bool) :
    (py ∣ gy ∧ px ∣ gx) ↔ ∃ T, mkCart2 gy gx py px per = .ok T := by
  have := construct2_refuses_iff gy gx py px per
  cases h : mkCart2 gy gx py px per with
  | ok T =>
    rw [h] at this
    simp only [reduceCtorEq, false_iff, not_not] at this
    simpa using this
  | error e =>
    have he : e = .runtimeError := by
      unfold mkCart2 at h
      split at h
      · cases h; rfl
      · cases h
    subst he
    rw [h] at this
    simpa using this

/-- C02 (3D). -/
theorem construct3_refuses_iff (gz gy gx pz py px : ℕ) (per : Bool) :
    mkCart3 gz gy gx pz py px per = .error .runtimeError ↔ ¬ (pz ∣ gz ∧ py ∣ gy ∧ px ∣ gx) := by
  unfold mkCart3
  rw [Nat.dvd_iff_mod_eq_zero, Nat.dvd_iff_mod_eq_zero, Nat.dvd_iff_mod_eq_zero]
  split <;> simp <;> omega

/-- C02 (3D). -/
theorem construct3_ok {gz gy gx pz py px : ℕ} {per : Bool} {T : Cart3} (h : mkCart3 gz gy gx pz py px per = .ok T) :
    T.gz = gz ∧ T.gy = gy ∧ T.gx = gx ∧ T.pz = pz ∧ T.py = py ∧ T.px = px ∧ T.per = per ∧
      T.pz * T.nz = T.gz ∧ T.py * T.ny = T.gy ∧ T.px * T.nx = T.gx := by
  unfold mkCart3 at h
  split at h
  · cases h
  · rename_i hh
    cases h
    simp only [not_or, not_not] at hh
    exact ⟨rfl, rfl, rfl, rfl, rfl, rfl, rfl, Nat.mul_div_cancel' (Nat.dvd_of_mod_eq_zero hh.1),
      Nat.mul_div_cancel' (Nat.dvd_of_mod_eq_zero hh.2.1), Nat.mul_div_cancel' (Nat.dvd_of_mod_eq_zero hh.2.2)⟩

/-- C02 (3D). -/
theorem construct3_total (gz gy gx pz py px : ℕ) (per : Bool) :
    (pz ∣ gz ∧ py ∣ gy ∧ px ∣ gx) ↔ ∃ T, mkCart3 gz gy gx pz py px per = .ok T := by
  have := construct3_refuses_iff gz gy gx pz py px per
  cases h : mkCart3 gz gy gx pz py px per with
  | ok T =>
    rw [h] at this
    simp only [reduceCtorEq, false_iff, not_not] at this
    simpa using this
  | error e =>
    have he : e = .runtimeError := by
      unfold mkCart3 at h
      split at h
      · cases h; rfl
      · cases h
    subst he
    rw [h] at this
    simpa using this

/-- non-vacuity: an accepted and a refused grid -/
example : ∃ T, mkCart2 8 12 2 3 false = .ok T ∧ T.ny = 4 ∧ T.nx = 4 := ⟨_, rfl, rfl, rfl⟩
example : mkCart2 8 13 2 3 false = .error .runtimeError := rfl
example : mkCart3 8 12 6 2 3 1 true = .ok ⟨8, 12, 6, 2, 3, 1, 4, 4, 6, true⟩ := rfl
example : mkCart3 8 12 7 2 3 2 true = .error .runtimeError := rfl

/-! ## C01 -/

/-- One axis: a cell of `[0, P*n)` lies in exactly one of the blocks `[c*n, c*n+n)`, `0 ≤ c < P`. -/
private theorem axis_block {P n : ℕ} {G : ℤ} (h0 : 0 ≤ G) (h1 : G < (P * n : ℕ)) :
    0 ≤ G / n ∧ G / n < P ∧ G / n * n ≤ G ∧ G < G / n * n + n ∧
      ∀ c : ℤ, c * n ≤ G → G < c * n + n → c = G / n := by
  have hn : (0 : ℤ) < n := by
    rcases Nat.eq_zero_or_pos n with h | h
    · subst h; simp at h1; omega
    · exact_mod_cast h
  have e := Int.mul_ediv_add_emod G n
  have r0 := Int.emod_nonneg G hn.ne'
  have r1 := Int.emod_lt_of_pos G hn
  refine ⟨Int.ediv_nonneg h0 hn.le, ?_, ?_, ?_, ?_⟩
  · push_cast at h1
    exact Int.ediv_lt_of_lt_mul hn h1
  · rw [mul_comm]; omega
  · rw [mul_comm]; omega
  · intro c hc1 hc2
    symm
    rw [Int.ediv_eq_iff_of_pos hn]
    constructor <;> nlinarith

/-- C01 (2D): every cell of the global grid lies in the inner block of exactly one rank. -/
theorem decomposition2_partition {gy gx py px : ℕ} {per : Bool} {T : Cart2}
    (h : mkCart2 gy gx py px per = .ok T) (G : C2) (hG : InDomain2 T G) :
    ∃! c : C2, Valid2 T c ∧ InBlock2 T c G := by
  obtain ⟨-, -, -, -, -, hy, hx⟩ := construct2_ok h
  obtain ⟨h1, h2, h3, h4⟩ := hG
  rw [← hy] at h2
  rw [← hx] at h4
  obtain ⟨a1, a2, a3, a4, a5⟩ := axis_block h1 h2
  obtain ⟨b1, b2, b3, b4, b5⟩ := axis_block h3 h4
  refine ⟨(G.1 / T.ny, G.2 / T.nx), ⟨⟨a1, a2, b1, b2⟩, a3, a4, b3, b4⟩, ?_⟩
  rintro c ⟨-, k1, k2, k3, k4⟩
  exact Prod.ext (a5 _ k1 k2) (b5 _ k3 k4)

/-- C01 (2D): blocks of ranks stay inside the global grid. -/
theorem decomposition2_inside {gy gx py px : ℕ} {per : Bool} {T : Cart2}
    (h : mkCart2 gy gx py px per = .ok T) (c G : C2) (hc : Valid2 T c) (hG : InBlock2 T c G) :
    InDomain2 T G := by
  obtain ⟨-, -, -, -, -, hy, hx⟩ := construct2_ok h
  obtain ⟨c1, c2, c3, c4⟩ := hc
  obtain ⟨g1, g2, g3, g4⟩ := hG
  have hy' : (T.py : ℤ) * T.ny = T.gy := by exact_mod_cast hy
  have hx' : (T.px : ℤ) * T.nx = T.gx := by exact_mod_cast hx
  refine ⟨?_, ?_, ?_, ?_⟩ <;> nlinarith [Int.natCast_nonneg T.ny, Int.natCast_nonneg T.nx]

/-- C01 (3D). -/
theorem decomposition3_partition {gz gy gx pz py px : ℕ} {per : Bool} {T : Cart3}
    (h : mkCart3 gz gy gx pz py px per = .ok T) (G : C3) (hG : InDomain3 T G) :
    ∃! c : C3, Valid3 T c ∧ InBlock3 T c G := by
  obtain ⟨-, -, -, -, -, -, -, hz, hy, hx⟩ := construct3_ok h
  obtain ⟨h1, h2, h3, h4, h5, h6⟩ := hG
  rw [← hz] at h2
  rw [← hy] at h4
  rw [← hx] at h6
  obtain ⟨a1, a2, a3, a4, a5⟩ := axis_block h1 h2
  obtain ⟨b1, b2, b3, b4, b5⟩ := axis_block h3 h4
  obtain ⟨d1, d2, d3, d4, d5⟩ := axis_block h5 h6
  refine ⟨(G.1 / T.nz, G.2.1 / T.ny, G.2.2 / T.nx), ⟨⟨a1, a2, b1, b2, d1, d2⟩, a3, a4, b3, b4, d3, d4⟩, ?_⟩
  rintro c ⟨-, k1, k2, k3, k4, k5, k6⟩
  exact Prod.ext (a5 _ k1 k2) (Prod.ext (b5 _ k3 k4) (d5 _ k5 k6))

/-- C01 (3D): blocks of ranks stay inside the global grid. -/
theorem decomposition3_inside {gz gy gx pz py px : ℕ} {per : Bool} {T : Cart3}
    (h : mkCart3 gz gy gx pz py px per = .ok T) (c G : C3) (hc : Valid3 T c) (hG : InBlock3 T c G) :
    InDomain3 T G := by
  obtain ⟨-, -, -, -, -, -, -, hz, hy, hx⟩ := construct3_ok h
  obtain ⟨c1, c2, c3, c4, c5, c6⟩ := hc
  obtain ⟨g1, g2, g3, g4, g5, g6⟩ := hG
  have hz' : (T.pz : ℤ) * T.nz = T.gz := by exact_mod_cast hz
  have hy' : (T.py : ℤ) * T.ny = T.gy := by exact_mod_cast hy
  have hx' : (T.px : ℤ) * T.nx = T.gx := by exact_mod_cast hx
  refine ⟨?_, ?_, ?_, ?_, ?_, ?_⟩ <;>
    nlinarith [Int.natCast_nonneg T.nz, Int.natCast_nonneg T.ny, Int.natCast_nonneg T.nx]

/-- non-vacuity: cell (5, 7) of an 8 × 12 grid on 2 × 3 ranks is in the block of rank (1, 1) -/
example : InDomain2 ⟨8, 12, 2, 3, 4, 4, false⟩ (5, 7) ∧ Valid2 ⟨8, 12, 2, 3, 4, 4, false⟩ (1, 1) ∧
    InBlock2 ⟨8, 12, 2, 3, 4, 4, false⟩ (1, 1) (5, 7) := by
  simp [InDomain2, Valid2, InBlock2]

/-! ## C03 -/

/-- C03 (2D): `b` is next of `a` along an axis iff `a` is previous of `b`. -/
theorem neighbours2_mirror {T : Cart2} {a b : C2} (ha : Valid2 T a) (hb : Valid2 T b) :
    (nextY2 T a = some b ↔ prevY2 T b = some a) ∧ (nextX2 T a = some b ↔ prevX2 T b = some a) := by
  rw [nextY2_eq ha, prevY2_eq hb, nextX2_eq ha, prevX2_eq hb, nbr2_symm ha hb, nbr2_symm ha hb]
  simp

/-- C03 (3D). -/
theorem neighbours3_mirror {T : Cart3} {a b : C3} (ha : Valid3 T a) (hb : Valid3 T b) :
    (nextZ3 T a = some b ↔ prevZ3 T b = some a) ∧ (nextY3 T a = some b ↔ prevY3 T b = some a) ∧
      (nextX3 T a = some b ↔ prevX3 T b = some a) := by
  rw [nextZ3_eq ha, prevZ3_eq hb, nextY3_eq ha, prevY3_eq hb, nextX3_eq ha, prevX3_eq hb,
    nbr3_symm ha hb, nbr3_symm ha hb, nbr3_symm ha hb]
  simp

/-- C03 (2D): a diagonal neighbour sees us in the opposite direction. -/
theorem diagonal2_mirror {T : Cart2} {a b s : C2} (ha : Valid2 T a) (hb : Valid2 T b) :
    diag2 T a s = some b ↔ diag2 T b (-s.1, -s.2) = some a := by
  rw [diag2_eq, diag2_eq, nbr2_symm ha hb]

/-- C03 (3D). -/
theorem diagonal3_mirror {T : Cart3} {a b s : C3} (ha : Valid3 T a) (hb : Valid3 T b) :
    diag3 T a s = some b ↔ diag3 T b (-s.1, -s.2.1, -s.2.2) = some a := by
  rw [diag3_eq, diag3_eq, nbr3_symm ha hb]

/-- C03: along one axis the neighbour at distance one is missing exactly at the end of a non-periodic axis; otherwise
it is the adjacent coordinate, wrapped around at a periodic end. -/
theorem neighbour_axis {P : ℕ} {per : Bool} {c : ℤ} (h0 : 0 ≤ c) (h1 : c < P) :
    (axisNbr P per c 1 = none ↔ per = false ∧ c = P - 1) ∧
    (axisNbr P per c (-1) = none ↔ per = false ∧ c = 0) ∧
    (c < P - 1 → axisNbr P per c 1 = some (c + 1)) ∧ (0 < c → axisNbr P per c (-1) = some (c - 1)) ∧
    (per = true → c = P - 1 → axisNbr P per c 1 = some 0) ∧
    (per = true → c = 0 → axisNbr P per c (-1) = some ((P : ℤ) - 1)) := by
  have hm : (-1 : ℤ) % P = P - 1 := by
    rcases (by omega : (P : ℤ) = 1 ∨ 1 < (P : ℤ)) with h | h
    · rw [h]; rfl
    · have : (-1 : ℤ) % P = (-1 + P) % P := by simp
      rw [this, Int.emod_eq_of_lt (by omega) (by omega)]; omega
  refine ⟨?_, ?_, ?_, ?_, ?_, ?_⟩
  · unfold axisNbr
    cases per
    · simp; omega
    · simp only [if_true]
      split <;> simp
  · unfold axisNbr
    cases per
    · simp; omega
    · simp only [if_true]
      split <;> simp
  · intro h; unfold axisNbr; rw [if_pos (by omega)]
  · intro h; unfold axisNbr; rw [if_pos (by omega)]; rfl
  · rintro rfl hc
    rw [axisNbr_eq]; simp [hc]
  · rintro rfl hc
    rw [axisNbr_eq]; simp [hc, hm]

/-- C03 (2D): rank numbers and coordinates are in bijection: `Get_cart_rank` and `coords` are inverse. -/
theorem rank2_bijection (T : Cart2) :
    (∀ c, Valid2 T c → coordsOf2 T (rankOf2 T c) = c ∧ 0 ≤ rankOf2 T c ∧ rankOf2 T c < T.py * T.px) ∧
    (∀ r : ℤ, 0 ≤ r → r < T.py * T.px → Valid2 T (coordsOf2 T r) ∧ rankOf2 T (coordsOf2 T r) = r) := by
  constructor
  · rintro c ⟨h1, h2, h3, h4⟩
    have hp : (0 : ℤ) < T.px := by omega
    refine ⟨?_, ?_, ?_⟩
    · unfold coordsOf2 rankOf2
      refine Prod.ext ?_ ?_
      · show (c.1 * T.px + c.2) / T.px = c.1
        rw [add_comm, Int.add_mul_ediv_right _ _ hp.ne', Int.ediv_eq_zero_of_lt h3 h4]; omega
      · show (c.1 * T.px + c.2) % T.px = c.2
        rw [add_comm, Int.add_mul_emod_self_right, Int.emod_eq_of_lt h3 h4]
    · unfold rankOf2; nlinarith
    · unfold rankOf2; nlinarith
  · intro r h0 h1
    have hpx : (0 : ℤ) < T.px := by
      rcases Nat.eq_zero_or_pos T.px with h | h
      · rw [h] at h1; simp at h1; omega
      · exact_mod_cast h
    unfold Valid2 coordsOf2 rankOf2
    refine ⟨⟨Int.ediv_nonneg h0 hpx.le, ?_, Int.emod_nonneg _ hpx.ne', Int.emod_lt_of_pos _ hpx⟩, ?_⟩
    · exact Int.ediv_lt_of_lt_mul hpx h1
    · simpa [mul_comm] using Int.mul_ediv_add_emod r T.px

/-- C03 (3D). -/
theorem rank3_bijection (T : Cart3) :
    (∀ c, Valid3 T c → coordsOf3 T (rankOf3 T c) = c ∧ 0 ≤ rankOf3 T c ∧ rankOf3 T c < T.pz * T.py * T.px) ∧
    (∀ r : ℤ, 0 ≤ r → r < T.pz * T.py * T.px → Valid3 T (coordsOf3 T r) ∧ rankOf3 T (coordsOf3 T r) = r) := by
  constructor
  · rintro c ⟨h1, h2, h3, h4, h5, h6⟩
    have hp : (0 : ℤ) < T.px := by omega
    have hq : (0 : ℤ) < T.py := by omega
    have e1 : ((c.1 * T.py + c.2.1) * T.px + c.2.2) / T.px = c.1 * T.py + c.2.1 := by
      rw [add_comm, Int.add_mul_ediv_right _ _ hp.ne', Int.ediv_eq_zero_of_lt h5 h6]; omega
    refine ⟨?_, ?_, ?_⟩
    · unfold coordsOf3 rankOf3
      refine Prod.ext ?_ (Prod.ext ?_ ?_)
      · show ((c.1 * T.py + c.2.1) * T.px + c.2.2) / T.px / T.py = c.1
        rw [e1, add_comm, Int.add_mul_ediv_right _ _ hq.ne', Int.ediv_eq_zero_of_lt h3 h4]; omega
      · show ((c.1 * T.py + c.2.1) * T.px + c.2.2) / T.px % T.py = c.2.1
        rw [e1, add_comm, Int.add_mul_emod_self_right, Int.emod_eq_of_lt h3 h4]
      · show ((c.1 * T.py + c.2.1) * T.px + c.2.2) % T.px = c.2.2
        rw [add_comm, Int.add_mul_emod_self_right, Int.emod_eq_of_lt h5 h6]
    · unfold rankOf3
      have : 0 ≤ c.1 * T.py + c.2.1 := by nlinarith
      nlinarith
    · unfold rankOf3
      have : c.1 * T.py + c.2.1 + 1 ≤ T.pz * T.py := by nlinarith
      nlinarith
  · intro r h0 h1
    have hpx : (0 : ℤ) < T.px := by
      rcases Nat.eq_zero_or_pos T.px with h | h
      · rw [h] at h1; simp at h1; omega
      · exact_mod_cast h
    have hpy : (0 : ℤ) < T.py := by
      rcases Nat.eq_zero_or_pos T.py with h | h
      · rw [h] at h1; simp at h1; omega
      · exact_mod_cast h
    have hd0 : 0 ≤ r / T.px := Int.ediv_nonneg h0 hpx.le
    have hd1 : r / T.px < T.pz * T.py := Int.ediv_lt_of_lt_mul hpx h1
    unfold Valid3 coordsOf3 rankOf3
    refine ⟨⟨Int.ediv_nonneg hd0 hpy.le, Int.ediv_lt_of_lt_mul hpy hd1, Int.emod_nonneg _ hpy.ne',
      Int.emod_lt_of_pos _ hpy, Int.emod_nonneg _ hpx.ne', Int.emod_lt_of_pos _ hpx⟩, ?_⟩
    have a := Int.mul_ediv_add_emod r T.px
    have b := Int.mul_ediv_add_emod (r / T.px) T.py
    show (r / T.px / T.py * T.py + r / T.px % T.py) * T.px + r % T.px = r
    rw [mul_comm (r / T.px / T.py), b, mul_comm, a]

/-- non-vacuity: on a periodic axis with two ranks, next and previous coincide -/
example : nextY2 ⟨8, 4, 2, 1, 4, 4, true⟩ (0, 0) = some (1, 0) ∧
    prevY2 ⟨8, 4, 2, 1, 4, 4, true⟩ (0, 0) = some (1, 0) ∧
    nextY2 ⟨8, 4, 2, 1, 4, 4, false⟩ (1, 0) = none := by
  refine ⟨rfl, rfl, rfl⟩

end Sopht
