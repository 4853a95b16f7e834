import Verif.Sim2DRun
import Verif.Sim3DRun
import Verif.Interactor2DRun
import Verif.Interactor3DRun
import Verif.WeightsProps

/-! # The stable time step is positive and respects the limits in every cell (C77)

`compute_stable_timestep` (flow_simulators_mpi_2d.py:299-321, flow_simulators_mpi_3d.py:414-437). -/

namespace Sopht

theorem block_divmod {g : ℕ} (n : ℕ) (c i : ℤ) (hn : 0 < n) (h1 : (g : ℤ) ≤ i) (h2 : i < g + n) : (c * n + i - g) / n = c ∧ (c * n + i - g) % n + g = i := by
  have hn' : (n : ℤ) ≠ 0 := by omega
  have e : c * n + i - g = (i - g) + c * n := by ring
  rw [e, Int.add_mul_ediv_right _ _ hn', Int.add_mul_emod_self_right, Int.ediv_eq_zero_of_lt (by omega) (by omega), Int.emod_eq_of_lt (by omega) (by omega)]
  constructor <;> omega

section D2
variable {T : Cart2} {gy gx py px : ℕ}

/-- the inner cells of all ranks are always the blocks of some global array -/
theorem blocks2_exist (hny : 0 < T.ny) (hnx : 0 < T.nx) (g : ℕ) (v : World C2 C2 ℝ) : ∃ F, Blocks2 T g F v := by
  refine ⟨fun G => v (G.1 / T.ny, G.2 / T.nx) (G.1 % T.ny + g, G.2 % T.nx + g), ?_⟩
  intro c p hc ⟨h1, h2, h3, h4⟩
  obtain ⟨a1, a2⟩ := block_divmod T.ny c.1 p.1 hny h1 h2
  obtain ⟨b1, b2⟩ := block_divmod T.nx c.2 p.2 hnx h3 h4
  simp only [globalIx2]
  rw [a1, a2, b1, b2]

variable [NeZero T.gy] [NeZero T.gx]

/-- C77 (2D): whatever the velocities are, all ranks get the same time step; it is positive, in every inner cell of every rank it satisfies the advection limit
`dt (|u| + |v|) ≤ CFL dx`, and it satisfies the diffusion limit `4 ν dt ≤ 0.9 dx²`.  With prefactor 1 one of the limits is attained (the first up to the tolerance). -/
theorem stableDt2_limits (hT : mkCart2 gy gx py px false = .ok T) (C : Cfg2) (hg : 1 ≤ C.g) (hcfl : 0 < C.cfl) (hxr : 0 < C.xr) (hnu : 0 ≤ C.nu) {tol : ℝ} (htol : 0 < tol)
    {pre : ℝ} (hpre : 0 < pre) (hpre1 : pre ≤ 1) (S : Sim2 T) :
    ∃ dt, (stableDt2 C tol pre S).2 = .ok dt ∧ 0 < dt ∧
      (∀ c p, Valid2 T c → Inner2 T C.g p → dt * (|S.vel 0 c p| + |S.vel 1 c p|) ≤ C.cfl * (C.xr / gx)) ∧
      dt * (4 * C.nu) ≤ 0.9 * (C.xr / gx) ^ 2 ∧
      (pre = 1 → dt * (4 * C.nu) = 0.9 * (C.xr / gx) ^ 2 ∨
        ∃ c p, Valid2 T c ∧ Inner2 T C.g p ∧ dt * (|S.vel 0 c p| + |S.vel 1 c p| + tol) = C.cfl * (C.xr / gx)) := by
  obtain ⟨e1, e2, -, -, -, hY, hX⟩ := construct2_ok hT
  have hgy0 : 0 < T.gy := Nat.pos_of_ne_zero (NeZero.ne _)
  have hgx0 : 0 < T.gx := Nat.pos_of_ne_zero (NeZero.ne _)
  have hny : 0 < T.ny := Nat.pos_of_ne_zero fun h => by rw [h, Nat.mul_zero] at hY; omega
  have hnx : 0 < T.nx := Nat.pos_of_ne_zero fun h => by rw [h, Nat.mul_zero] at hX; omega
  obtain ⟨V0, h0⟩ := blocks2_exist hny hnx C.g (S.vel 0)
  obtain ⟨V1, h1⟩ := blocks2_exist hny hnx C.g (S.vel 1)
  have hV : ∀ j, Blocks2 T C.g ((![V0, V1] : Fin 2 → C2 → ℝ) j) (S.vel j) := fun j => match j with
    | 0 => h0
    | 1 => h1
  have hM := maxOm2_greatest (gy := gy) (gx := gx) (by omega) (by omega) (fun G => |V0 G| + |V1 G|)
  set M := sSup {x | ∃ G, Dom2 gy gx G ∧ x = |V0 G| + |V1 G|} with hMdef
  have hset : {x | ∃ G, Dom2 gy gx G ∧ x = |V0 G| + |V1 G|} = {x | ∃ G, InDomain2 T G ∧ x = |V0 G| + |V1 G|} := by
    ext x
    simp only [Set.mem_setOf_eq]
    constructor
    · rintro ⟨G, hG, rfl⟩; exact ⟨G, (dom2_iff hT G).1 hG, rfl⟩
    · rintro ⟨G, hG, rfl⟩; exact ⟨G, (dom2_iff hT G).2 hG, rfl⟩
  rw [hset] at hM
  have hdt := stableDt2_global hT C hg htol pre hcfl.le hxr.le S hV hM
  have hM0 : 0 ≤ M := by obtain ⟨G, -, e⟩ := hM.1; rw [e]; positivity
  have hdx : 0 < C.xr / gx := div_pos hxr (by rw [← e2]; exact_mod_cast hgx0)
  set dx := C.xr / gx with hdxd
  have hle : ∀ c p, Valid2 T c → Inner2 T C.g p → |S.vel 0 c p| + |S.vel 1 c p| ≤ M := by
    intro c p hc hp
    rw [h0 c p hc hp, h1 c p hc hp]
    exact hM.2 ⟨_, inner_inDomain2 hT hc hp, rfl⟩
  have hadv : 0 < C.cfl * dx / (M + tol) := by positivity
  set D := if C.nu = 0 then C.cfl * dx / (M + tol) else min (C.cfl * dx / (M + tol)) (0.9 * dx ^ 2 / 4 / C.nu) with hD
  have hD0 : 0 < D := by
    rw [hD]; split
    · exact hadv
    · rename_i hn
      have : 0 < C.nu := lt_of_le_of_ne hnu (Ne.symm hn)
      exact lt_min hadv (by positivity)
  have hDa : D ≤ C.cfl * dx / (M + tol) := by
    rw [hD]; split
    · exact le_refl _
    · exact min_le_left _ _
  have hDn : D * (4 * C.nu) ≤ 0.9 * dx ^ 2 := by
    by_cases hn : C.nu = 0
    · rw [hn]; norm_num; positivity
    · have hn' : 0 < C.nu := lt_of_le_of_ne hnu (Ne.symm hn)
      rw [hD, if_neg hn]
      have := min_le_right (C.cfl * dx / (M + tol)) (0.9 * dx ^ 2 / 4 / C.nu)
      calc _ ≤ (0.9 * dx ^ 2 / 4 / C.nu) * (4 * C.nu) := by gcongr
        _ = _ := by field_simp
  have hpD : D * pre ≤ D := by nlinarith
  refine ⟨D * pre, hdt, by positivity, ?_, ?_, ?_⟩
  · intro c p hc hp
    have hs0 : 0 ≤ |S.vel 0 c p| + |S.vel 1 c p| := by positivity
    calc D * pre * (|S.vel 0 c p| + |S.vel 1 c p|) ≤ C.cfl * dx / (M + tol) * (M + tol) := by
          have := hle c p hc hp
          apply mul_le_mul (hpD.trans hDa) (by linarith) hs0 hadv.le
      _ = _ := by field_simp
  · exact (mul_le_mul_of_nonneg_right hpD (by positivity)).trans hDn
  · rintro rfl
    rw [mul_one]
    have hatt : ∃ c p, Valid2 T c ∧ Inner2 T C.g p ∧ |S.vel 0 c p| + |S.vel 1 c p| = M := by
      obtain ⟨G, hG, e⟩ := hM.1
      obtain ⟨c, p, hc, hp, rfl⟩ := domain_owned2 hT C.g hG
      exact ⟨c, p, hc, hp, by rw [h0 c p hc hp, h1 c p hc hp, e]⟩
    have hcase : D = C.cfl * dx / (M + tol) ∨ (C.nu ≠ 0 ∧ D = 0.9 * dx ^ 2 / 4 / C.nu) := by
      rw [hD]; split
      · exact Or.inl rfl
      · rename_i hn
        rcases min_choice (C.cfl * dx / (M + tol)) (0.9 * dx ^ 2 / 4 / C.nu) with h | h
        · exact Or.inl h
        · exact Or.inr ⟨hn, h⟩
    rcases hcase with hc | ⟨hn, hc⟩
    · right
      obtain ⟨c, p, hcv, hp, e⟩ := hatt
      refine ⟨c, p, hcv, hp, ?_⟩
      rw [e, hc]; field_simp
    · left
      rw [hc]; field_simp

end D2

section D3
variable {T : Cart3} {gz gy gx pz py px : ℕ}

/-- the inner cells of all ranks are always the blocks of some global array -/
theorem blocks3_exist (hnz : 0 < T.nz) (hny : 0 < T.ny) (hnx : 0 < T.nx) (g : ℕ) (v : World C3 C3 ℝ) : ∃ F, Holds3 T g F v := by
  refine ⟨fun G => v (G.1 / T.nz, G.2.1 / T.ny, G.2.2 / T.nx) (G.1 % T.nz + g, G.2.1 % T.ny + g, G.2.2 % T.nx + g), ?_⟩
  intro c p hc ⟨h1, h2, h3, h4, h5, h6⟩
  obtain ⟨a1, a2⟩ := block_divmod T.nz c.1 p.1 hnz h1 h2
  obtain ⟨b1, b2⟩ := block_divmod T.ny c.2.1 p.2.1 hny h3 h4
  obtain ⟨d1, d2⟩ := block_divmod T.nx c.2.2 p.2.2 hnx h5 h6
  simp only [globalIx3]
  rw [a1, a2, b1, b2, d1, d2]

variable [NeZero T.gz] [NeZero T.gy] [NeZero T.gx]

/-- C77 (3D): whatever the velocities are, all ranks get the same time step; it is positive, in every inner cell of every rank it satisfies the advection limit
`dt (|u| + |v| + |w|) ≤ CFL dx`, and it satisfies the diffusion limit `6 ν dt ≤ 0.9 dx²`.  With prefactor 1 one of the limits is attained (up to the tolerance). -/
theorem stableDt3_limits (hT : mkCart3 gz gy gx pz py px false = .ok T) (C : Cfg3) (hg : 1 ≤ C.g) (hcfl : 0 < C.cfl) (hxr : 0 < C.xr) (hnu : 0 ≤ C.nu) {tol : ℝ} (htol : 0 < tol)
    {pre : ℝ} (hpre : 0 < pre) (hpre1 : pre ≤ 1) (S : Sim3 T) :
    ∃ dt, (stableDt3 C tol pre S).2 = .ok dt ∧ 0 < dt ∧
      (∀ c p, Valid3 T c → Inner3 T C.g p → dt * (|S.vel 0 c p| + |S.vel 1 c p| + |S.vel 2 c p|) ≤ C.cfl * (C.xr / gx)) ∧
      dt * (6 * C.nu) ≤ 0.9 * (C.xr / gx) ^ 2 ∧
      (pre = 1 → dt * (6 * (C.nu + tol)) = 0.9 * (C.xr / gx) ^ 2 ∨
        ∃ c p, Valid3 T c ∧ Inner3 T C.g p ∧ dt * (|S.vel 0 c p| + |S.vel 1 c p| + |S.vel 2 c p| + tol) = C.cfl * (C.xr / gx)) := by
  obtain ⟨e0, e1, e2, -, -, -, -, hZ, hY, hX⟩ := construct3_ok hT
  have hgy0 : 0 < T.gy := Nat.pos_of_ne_zero (NeZero.ne _)
  have hgx0 : 0 < T.gx := Nat.pos_of_ne_zero (NeZero.ne _)
  have hgz0 : 0 < T.gz := Nat.pos_of_ne_zero (NeZero.ne _)
  have hnz : 0 < T.nz := Nat.pos_of_ne_zero fun h => by rw [h, Nat.mul_zero] at hZ; omega
  have hny : 0 < T.ny := Nat.pos_of_ne_zero fun h => by rw [h, Nat.mul_zero] at hY; omega
  have hnx : 0 < T.nx := Nat.pos_of_ne_zero fun h => by rw [h, Nat.mul_zero] at hX; omega
  obtain ⟨V0, h0⟩ := blocks3_exist hnz hny hnx C.g (S.vel 0)
  obtain ⟨V1, h1⟩ := blocks3_exist hnz hny hnx C.g (S.vel 1)
  obtain ⟨V2, h2⟩ := blocks3_exist hnz hny hnx C.g (S.vel 2)
  have hV : ∀ j, Holds3 T C.g ((![V0, V1, V2] : Fin 3 → C3 → ℝ) j) (S.vel j) := fun j => match j with
    | 0 => h0
    | 1 => h1
    | 2 => h2
  have hM := maxOm3_greatest (gz := gz) (gy := gy) (gx := gx) (by omega) (by omega) (by omega) (fun (_ : Fin 3) G => |V0 G| + |V1 G| + |V2 G|)
  set M := sSup {x | ∃ G, Dom3 gz gy gx G ∧ x = |V0 G| + |V1 G| + |V2 G|} with hMdef
  have hset : {x | ∃ G, Dom3 gz gy gx G ∧ x = |V0 G| + |V1 G| + |V2 G|} = {x | ∃ G, InDomain3 T G ∧ x = |V0 G| + |V1 G| + |V2 G|} := by
    ext x
    simp only [Set.mem_setOf_eq]
    constructor
    · rintro ⟨G, hG, rfl⟩; exact ⟨G, (dom3_iff hT G).1 hG, rfl⟩
    · rintro ⟨G, hG, rfl⟩; exact ⟨G, (dom3_iff hT G).2 hG, rfl⟩
  have hset' : {x | ∃ (_ : Fin 3) (G : C3), Dom3 gz gy gx G ∧ x = |V0 G| + |V1 G| + |V2 G|} = {x | ∃ G, InDomain3 T G ∧ x = |V0 G| + |V1 G| + |V2 G|} := by
    rw [← hset]
    ext x
    simp only [Set.mem_setOf_eq, exists_const]
  rw [hset', ← hset, ← hMdef, hset] at hM
  have hdt := stableDt3_global hT C hg htol hnu pre hcfl.le hxr.le S hV hM
  have hM0 : 0 ≤ M := by obtain ⟨G, -, e⟩ := hM.1; rw [e]; positivity
  have hdx : 0 < C.xr / gx := div_pos hxr (by rw [← e2]; exact_mod_cast hgx0)
  set dx := C.xr / gx with hdxd
  have hle : ∀ c p, Valid3 T c → Inner3 T C.g p → |S.vel 0 c p| + |S.vel 1 c p| + |S.vel 2 c p| ≤ M := by
    intro c p hc hp
    rw [h0 c p hc hp, h1 c p hc hp, h2 c p hc hp]
    exact hM.2 ⟨_, inner_inDomain3 hT hc hp, rfl⟩
  have hadv : 0 < C.cfl * dx / (M + tol) := by positivity
  have hn' : 0 < C.nu + tol := by linarith
  set D := min (C.cfl * dx / (M + tol)) (0.9 * dx ^ 2 / 6 / (C.nu + tol)) with hD
  have hD0 : 0 < D := lt_min hadv (by positivity)
  have hDa : D ≤ C.cfl * dx / (M + tol) := min_le_left _ _
  have hDn : D * (6 * C.nu) ≤ 0.9 * dx ^ 2 := by
    have := min_le_right (C.cfl * dx / (M + tol)) (0.9 * dx ^ 2 / 6 / (C.nu + tol))
    calc D * (6 * C.nu) ≤ D * (6 * (C.nu + tol)) := by gcongr; linarith
      _ ≤ (0.9 * dx ^ 2 / 6 / (C.nu + tol)) * (6 * (C.nu + tol)) := by gcongr
      _ = _ := by field_simp
  have hpD : D * pre ≤ D := by nlinarith
  refine ⟨D * pre, hdt, by positivity, ?_, ?_, ?_⟩
  · intro c p hc hp
    have hs0 : 0 ≤ |S.vel 0 c p| + |S.vel 1 c p| + |S.vel 2 c p| := by positivity
    calc D * pre * (|S.vel 0 c p| + |S.vel 1 c p| + |S.vel 2 c p|) ≤ C.cfl * dx / (M + tol) * (M + tol) := by
          have := hle c p hc hp
          apply mul_le_mul (hpD.trans hDa) (by linarith) hs0 hadv.le
      _ = _ := by field_simp
  · exact (mul_le_mul_of_nonneg_right hpD (by positivity)).trans hDn
  · rintro rfl
    rw [mul_one]
    have hatt : ∃ c p, Valid3 T c ∧ Inner3 T C.g p ∧ |S.vel 0 c p| + |S.vel 1 c p| + |S.vel 2 c p| = M := by
      obtain ⟨G, hG, e⟩ := hM.1
      obtain ⟨c, p, hc, hp, rfl⟩ := domain_owned3 hT C.g hG
      exact ⟨c, p, hc, hp, by rw [h0 c p hc hp, h1 c p hc hp, h2 c p hc hp, e]⟩
    rcases min_choice (C.cfl * dx / (M + tol)) (0.9 * dx ^ 2 / 6 / (C.nu + tol)) with hc | hc
    · right
      obtain ⟨c, p, hcv, hp, e⟩ := hatt
      refine ⟨c, p, hcv, hp, ?_⟩
      rw [e, hD, hc]; field_simp
    · left
      rw [hD, hc]; field_simp

end D3

/-- a viscous flow on 2 × 1 and on 1 × 1 × 2 ranks -/
example : mkCart2 8 8 2 1 false = .ok ⟨8, 8, 2, 1, 4, 8, false⟩ ∧ mkCart3 8 8 8 1 1 2 false = .ok ⟨8, 8, 8, 1, 1, 2, 8, 8, 4, false⟩ := ⟨rfl, rfl⟩

end Sopht
