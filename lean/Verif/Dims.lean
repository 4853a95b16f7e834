import Verif.Sim2DProps
import Verif.Sim3DOdd
import Mathlib.Data.Nat.Prime.Basic
import Mathlib.Algebra.Order.Ring.Nat

/-!
# The topology chosen by MPI; C80

Models the choice of the topology in `MPIConstruct2D/3D.__init__` (mpi_utils_2d.py:30-47, mpi_utils_3d.py:31-48).
-/

namespace Sopht

/-- `MPI.Compute_dims(n, dims)` (trusted MPI semantics, `MPI_Dims_create`): `out` is a possible result. Positive entries are kept, zeros are replaced by values in
non-increasing order, the product is the number of ranks.  (MPI also wants the new values to be "as close to each other as possible", which is not used.)  If there
is no such result the call raises an MPI exception. -/
def ComputeDims (n : ℕ) (dims out : List ℕ) : Prop :=
  out.length = dims.length ∧ out.prod = n ∧ (∀ q ∈ dims.zip out, q.1 ≠ 0 → q.2 = q.1) ∧ (((dims.zip out).filter fun q => q.1 = 0).map (·.2)).Pairwise (· ≥ ·)

/-- `self.rank_distribution` (mpi_utils_2d.py:31-37, mpi_utils_3d.py:32-38): what was given, else zeros with a 1 in the last place. -/
def rankDistribution (gridDim : ℕ) : Option (List ℕ) → List ℕ
  | some d => d
  | none => (List.replicate gridDim 0).set (gridDim - 1) 1

/-- A 2D simulator is constructed on `n` ranks with this `rank_distribution` and MPI chooses the topology `(a.py, a.px)`. -/
def Topology2 (n : ℕ) (dist : Option (List ℕ)) (a : SimArgs2) : Prop := ComputeDims n (rankDistribution 2 dist) [a.py, a.px]

/-- A 3D simulator is constructed on `n` ranks with this `rank_distribution` and MPI chooses the topology `(a.pz, a.py, a.px)`. -/
def Topology3 (n : ℕ) (dist : Option (List ℕ)) (a : SimArgs3) : Prop := ComputeDims n (rankDistribution 3 dist) [a.pz, a.py, a.px]

/-- **C80** A distribution given in full is used as it is, and only if it has as many entries as ranks multiply to. -/
theorem topology2_given {n py px : ℕ} (hy : py ≠ 0) (hx : px ≠ 0) (a : SimArgs2) : Topology2 n (some [py, px]) a ↔ a.py = py ∧ a.px = px ∧ py * px = n := by
  unfold Topology2 ComputeDims rankDistribution
  simp [hy, hx]
  constructor
  · rintro ⟨h1, h2, h3⟩; exact ⟨h2, h3, by rw [← h1, h2, h3]⟩
  · rintro ⟨h1, h2, h3⟩; exact ⟨by rw [h1, h2, h3], h1, h2⟩

/-- **C80** -/
theorem topology3_given {n pz py px : ℕ} (hz : pz ≠ 0) (hy : py ≠ 0) (hx : px ≠ 0) (a : SimArgs3) :
    Topology3 n (some [pz, py, px]) a ↔ a.pz = pz ∧ a.py = py ∧ a.px = px ∧ pz * (py * px) = n := by
  unfold Topology3 ComputeDims rankDistribution
  simp [hz, hy, hx]
  constructor
  · rintro ⟨h1, h2, h3, h4⟩; exact ⟨h2, h3, h4, by rw [← h1, h2, h3, h4]⟩
  · rintro ⟨h1, h2, h3, h4⟩; exact ⟨by rw [h1, h2, h3, h4], h1, h2, h3⟩

/-- **C80** By default a 2D domain is cut into `n` slabs along y. -/
theorem topology2_default (n : ℕ) (a : SimArgs2) : Topology2 n none a ↔ a.py = n ∧ a.px = 1 := by
  unfold Topology2 ComputeDims rankDistribution
  simp
  intro h; rw [h, mul_one]

/-- **C80** By default a 3D domain is not cut along x, and at least as often along z as along y. -/
theorem topology3_default (n : ℕ) (a : SimArgs3) : Topology3 n none a ↔ a.px = 1 ∧ a.pz * a.py = n ∧ a.py ≤ a.pz := by
  unfold Topology3 ComputeDims rankDistribution
  simp
  constructor
  · rintro ⟨h1, h2, h3⟩; rw [h2, mul_one] at h1; exact ⟨h2, h1, h3⟩
  · rintro ⟨h1, h2, h3⟩; rw [h1, mul_one]; exact ⟨h2, rfl, h3⟩

/-- **C80** With the default distribution a 2D simulator can be constructed on `n` ranks exactly if the flow type is right and `n` divides the number of rows; then (with a
ghost size of 2 or more and an integer penalty width) it has everything a time step needs. -/
theorem default2_ok_iff {n : ℕ} {a : SimArgs2} (h : Topology2 n none a) :
    ((∃ T, simCheck2 a = .ok T) ↔
      ((a.flowType = "passive_scalar" ∧ a.freeStream = false) ∨ a.flowType = "navier_stokes" ∨ a.flowType = "navier_stokes_with_forcing") ∧ n ∣ a.gy) ∧
    (∀ T, simCheck2 a = .ok T → 2 ≤ a.g → (∃ w : ℕ, a.width = .int w) → ∀ f ∈ used2 a.flowType, f ∈ attrs2 a T) := by
  obtain ⟨h1, h2⟩ := (topology2_default n a).1 h
  refine ⟨?_, ?_⟩
  · rw [simCheck2_ok_iff, h1, h2, Nat.mod_one, ← Nat.dvd_iff_mod_eq_zero]
    simp
  · intro T hT hg hw
    exact (attrs2_complete_iff a hT).2 ⟨hg, fun _ => ⟨Or.inr h2, hw⟩⟩

/-- **C80** In 3D the default distribution never is what a Navier-Stokes simulator refuses. -/
theorem default3_ok_iff {n : ℕ} {a : SimArgs3} (h : Topology3 n none a) : (∃ T, simCheck3 a = .ok T) ↔
    (a.gz % a.pz = 0 ∧ a.gy % a.py = 0) ∧
    (((a.flowType = "passive_scalar" ∨ a.flowType = "passive_vector") ∧ 2 ≤ a.g) ∨
     ((a.flowType = "navier_stokes" ∨ a.flowType = "navier_stokes_with_forcing") ∧ 1 ≤ a.g ∧
      (∃ n : ℕ, a.width = .int n) ∧ (a.filterVorticity = true → FilterOk (filterInUse a)))) := by
  obtain ⟨h1, -, -⟩ := (topology3_default n a).1 h
  rw [simCheck3_ok_iff, h1, Nat.mod_one]
  simp

/-- **C80** On an odd number of ranks (other than one) no 3D Navier-Stokes simulator can take a step, whatever the rank distribution: every step raises. -/
theorem odd_ranks_fail3 {n : ℕ} (hn : Odd n) (h1 : n ≠ 1) {T : Cart3} (hp : T.pz * (T.py * T.px) = n) {gz gy gx pz py px : ℕ}
    (hT : mkCart3 gz gy gx pz py px false = .ok T) {C : Cfg3} [NeZero T.gz] [NeZero T.gy] [NeZero T.gx] (hNS : isNS C.flowType = true) (hg : 1 ≤ C.g)
    (hwz : C.w ≤ T.nz) (hwy : C.w ≤ T.ny) (hwx : C.w ≤ T.nx) (hnx : 0 < T.nx) (hxr : 0 < C.xr) (K : Kern3) (sch : Scheds3) (dt : ℝ) (fs : Fin 3 → ℝ) (S : Sim3 T) :
    (timeStep3 C K sch dt (some fs) S).2 = some .mpiError ∧ (timeStep3 C K sch dt (some fs) S).1.time = S.time := by
  have hn0 : n ≠ 0 := by rintro rfl; exact absurd hn (by decide)
  have hz : T.pz ≠ 0 := by rintro h; rw [h, zero_mul] at hp; exact hn0 hp.symm
  have hy : T.py ≠ 0 := by rintro h; rw [h, zero_mul, mul_zero] at hp; exact hn0 hp.symm
  have hx : T.px ≠ 0 := by rintro h; rw [h, mul_zero, mul_zero] at hp; exact hn0 hp.symm
  refine (timeStep3_iff_even hT hNS hg hwz hwy hwx hnx hxr (Nat.pos_of_ne_zero hz) (Nat.pos_of_ne_zero hy) (Nat.pos_of_ne_zero hx) K sch dt fs S).2 ?_
  rw [← hp, Nat.odd_mul, Nat.odd_mul] at hn
  obtain ⟨o1, o2, o3⟩ := hn
  intro hE
  apply h1
  rw [← hp]
  unfold EvenTopo3 at hE
  rw [Nat.odd_iff] at o1 o2 o3
  have e1 : T.pz = 1 := by omega
  have e2 : T.py = 1 := by omega
  have e3 : T.px = 1 := by omega
  rw [e1, e2, e3]

/-- **C80** On a power of two of ranks every distribution on which the simulator's penalty zone fits works. -/
theorem pow2_ranks_work3 {k : ℕ} {T : Cart3} (hp : T.pz * (T.py * T.px) = 2 ^ k) {gz gy gx pz py px : ℕ}
    (hT : mkCart3 gz gy gx pz py px false = .ok T) {C : Cfg3} [NeZero T.gz] [NeZero T.gy] [NeZero T.gx] (hNS : isNS C.flowType = true) (hg : 1 ≤ C.g)
    (hwz : C.w ≤ T.nz) (hwy : C.w ≤ T.ny) (hwx : C.w ≤ T.nx) (hnx : 0 < T.nx) (hxr : 0 < C.xr) (K : Kern3) (sch : Scheds3) (dt : ℝ) (fs : Fin 3 → ℝ) (S : Sim3 T) :
    (timeStep3 C K sch dt (some fs) S).2 = none ∧ (timeStep3 C K sch dt (some fs) S).1.time = S.time + dt := by
  have ev : ∀ m, m ∣ 2 ^ k → 0 < m ∧ (m = 1 ∨ m % 2 = 0) := by
    intro m hm
    obtain ⟨j, -, rfl⟩ := (Nat.dvd_prime_pow Nat.prime_two).1 hm
    refine ⟨by positivity, ?_⟩
    cases j with
    | zero => exact Or.inl rfl
    | succ j => exact Or.inr (by rw [pow_succ]; omega)
  have hz := ev T.pz ⟨_, hp.symm⟩
  have hy := ev T.py ⟨T.pz * T.px, by rw [← hp]; ring⟩
  have hx := ev T.px ⟨T.pz * T.py, by rw [← hp]; ring⟩
  refine (timeStep3_iff_even hT hNS hg hwz hwy hwx hnx hxr hz.1 hy.1 hx.1 K sch dt fs S).1 ?_
  unfold EvenTopo3
  exact ⟨hz.2, hy.2, hx.2⟩

/-- non-vacuity: 6 ranks, by default, in 2D and 3D -/
example : Topology2 6 none ⟨12, 8, 6, 1, "navier_stokes", false, 2, .int 2⟩ := (topology2_default _ _).2 ⟨rfl, rfl⟩

example (a : SimArgs3) (h1 : a.pz = 3) (h2 : a.py = 2) (h3 : a.px = 1) : Topology3 6 none a := (topology3_default _ _).2 ⟨h3, by rw [h1, h2], by omega⟩

end Sopht
