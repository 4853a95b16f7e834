import Verif.Lagrangian
import Verif.CartProps
import Verif.Spec
import Mathlib.Tactic.FieldSimp
import Mathlib.Tactic.Positivity
import Mathlib.Tactic.NormNum
import Mathlib.Data.Rat.Floor
import Mathlib.Algebra.BigOperators.Group.List.Basic
import Mathlib.Algebra.BigOperators.Group.Finset.Basic
import Mathlib.Data.List.Dedup
import Mathlib.Data.List.NodupEquivFin
import Mathlib.Data.List.Nodup

/-! # C15, C16, C17: Lagrangian nodes -/

namespace Sopht

section Mapping
variable {K : Type} [Field K] [LinearOrder K] [IsStrictOrderedRing K] [FloorRing K]

/-- Specification: along one axis, position `x` lies in the half-open physical block number `c` of blocks of `n` cells. -/
def InPhys (dx shift : K) (n : ℕ) (c : ℤ) (x : K) : Prop :=
  shift + c * (dx * n) ≤ x ∧ x < shift + (c + 1) * (dx * n)

/-- Specification: position `x` lies in the domain of `P` blocks of `n` cells. -/
def InPhysDomain (dx shift : K) (P n : ℕ) (x : K) : Prop :=
  shift ≤ x ∧ x < shift + P * (dx * n)

/-- Specification: node at `x = (x, y)` lies in the physical block of the rank with coordinates `c = (cy, cx)`. -/
def InPhysBlock2 (T : Cart2) (dx shift : K) (c : C2) (x : K × K) : Prop :=
  InPhys dx shift T.ny c.1 x.2 ∧ InPhys dx shift T.nx c.2 x.1

/-- Specification: 3D version, node at `(x, y, z)`. -/
def InPhysBlock3 (T : Cart3) (dx shift : K) (c : C3) (x : K × K × K) : Prop :=
  InPhys dx shift T.nz c.1 x.2.2 ∧ InPhys dx shift T.ny c.2.1 x.2.1 ∧ InPhys dx shift T.nx c.2.2 x.1

theorem div_bounds {h s x : K} (hh : 0 < h) (a : K) :
    (a ≤ (x - s) / h ↔ s + a * h ≤ x) ∧ ((x - s) / h < a ↔ x < s + a * h) := by
  rw [le_div_iff₀ hh, div_lt_iff₀ hh]
  constructor <;> constructor <;> intro <;> linarith

theorem truncZ_block {dx s : K} {n : ℕ} {x : K} (hh : 0 < dx * n) (hx : s ≤ x) (c : ℤ) :
    truncZ ((x - s) / (dx * n)) = c ↔ InPhys dx s n c x := by
  have h0 : 0 ≤ (x - s) / (dx * n) := by
    apply div_nonneg <;> linarith
  unfold truncZ InPhys
  rw [if_pos h0, Int.floor_eq_iff, (div_bounds hh _).1, (div_bounds hh _).2]

theorem truncZ_ge {y : K} {P : ℤ} (hP : 0 < P) : P ≤ truncZ y ↔ (P : K) ≤ y := by
  unfold truncZ
  split
  · exact Int.le_floor
  · rename_i h
    push Not at h
    constructor
    · intro hc
      have : ⌈y⌉ ≤ 0 := by rw [Int.ceil_le]; simpa using h.le
      omega
    · intro hc
      have : (0 : K) < P := by exact_mod_cast hP
      exfalso; linarith

theorem npIdx_of_range {P : ℕ} {i : ℤ} (h0 : 0 ≤ i) (h1 : i < P) : npIdx P i = some i := by
  unfold npIdx; rw [if_pos ⟨h0, h1⟩]

theorem inPhys_range {dx s : K} {P n : ℕ} {x : K} (hh : 0 < dx * n) (hx : InPhysDomain dx s P n x) {c : ℤ}
    (hc : InPhys dx s n c x) : 0 ≤ c ∧ c < P := by
  obtain ⟨h1, h2⟩ := hx
  obtain ⟨h3, h4⟩ := hc
  constructor
  · by_contra hn
    have : (c : K) + 1 ≤ 0 := by exact_mod_cast (by omega : c + 1 ≤ 0)
    nlinarith
  · by_contra hn
    have : (P : K) ≤ c := by exact_mod_cast (by omega : (P : ℤ) ≤ c)
    nlinarith

theorem inPhys_unique {dx s : K} {n : ℕ} {x : K} (hh : 0 < dx * n) {c d : ℤ}
    (hc : InPhys dx s n c x) (hd : InPhys dx s n d x) : c = d := by
  obtain ⟨h1, h2⟩ := hc
  obtain ⟨h3, h4⟩ := hd
  have a : (c : K) < d + 1 := by by_contra h; push Not at h; nlinarith
  have b : (d : K) < c + 1 := by by_contra h; push Not at h; nlinarith
  have a' : c < d + 1 := by exact_mod_cast a
  have b' : d < c + 1 := by exact_mod_cast b
  omega

theorem mapM_ok_of {A B E : Type} (f : A → Except E B) (g : A → B) (l : List A) (h : ∀ a ∈ l, f a = .ok (g a)) :
    l.mapM f = .ok (l.map g) := by
  induction l with
  | nil => rfl
  | cons a t ih =>
    rw [List.mapM_cons, h a (by simp), ih (fun b hb => h b (by simp [hb]))]
    rfl

/-- C15 (2D): when all nodes are inside the domain, the mapping succeeds and gives node `i` to the rank `c` whose physical block
contains it; that rank exists in the topology and is the only one whose block contains the node. -/
theorem mapping2_owner (T : Cart2) {dx shift : K} (hdx : 0 < dx) (hny : 0 < T.ny) (hnx : 0 < T.nx)
    (pos : List (K × K))
    (hin : ∀ x ∈ pos, InPhysDomain dx shift T.py T.ny x.2 ∧ InPhysDomain dx shift T.px T.nx x.1) :
    ∃ addr, rankAddress2 T dx shift pos = .ok addr ∧ addr.length = pos.length ∧
      ∀ (i : ℕ) x c, pos[i]? = some x → addr[i]? = some c →
        Valid2 T c ∧ InPhysBlock2 T dx shift c x ∧ ∀ d, InPhysBlock2 T dx shift d x → d = c := by
  have hhy : 0 < dx * (T.ny : K) := mul_pos hdx (by exact_mod_cast hny)
  have hhx : 0 < dx * (T.nx : K) := mul_pos hdx (by exact_mod_cast hnx)
  have key : ∀ x ∈ pos, InPhysBlock2 T dx shift (subblock2 T dx shift x) x ∧ Valid2 T (subblock2 T dx shift x) := by
    intro x hx
    obtain ⟨hy, hx'⟩ := hin x hx
    have a := (truncZ_block hhy hy.1 _).1 rfl
    have b := (truncZ_block hhx hx'.1 _).1 rfl
    have ra := inPhys_range hhy hy a
    have rb := inPhys_range hhx hx' b
    exact ⟨⟨a, b⟩, ra.1, ra.2, rb.1, rb.2⟩
  refine ⟨pos.map (subblock2 T dx shift), ?_, by simp, ?_⟩
  · unfold rankAddress2
    simp only
    rw [if_neg]
    · rw [mapM_ok_of (g := id)]
      · simp
      · intro c hc
        obtain ⟨x, hx, rfl⟩ := List.mem_map.1 hc
        obtain ⟨-, h1, h2, h3, h4⟩ := key x hx
        rw [npIdx_of_range h1 h2, npIdx_of_range h3 h4]
        rfl
    · simp only [List.any_map, Bool.or_eq_true, List.any_eq_true, Function.comp, decide_eq_true_eq, not_or, not_exists,
        not_and, ge_iff_le, not_le]
      exact ⟨fun x hx => (key x hx).2.2.2.2, fun x hx => (key x hx).2.2.1⟩
  · intro i x c hp hc
    rw [List.getElem?_map, hp] at hc
    simp only [Option.map_some, Option.some.injEq] at hc
    subst hc
    have hx := List.mem_of_getElem? hp
    obtain ⟨k1, k2⟩ := key x hx
    refine ⟨k2, k1, ?_⟩
    intro d hd
    exact Prod.ext (inPhys_unique hhy hd.1 k1.1) (inPhys_unique hhx hd.2 k1.2)

/-- C15 (3D). -/
theorem mapping3_owner (T : Cart3) {dx shift : K} (hdx : 0 < dx) (hnz : 0 < T.nz) (hny : 0 < T.ny) (hnx : 0 < T.nx)
    (pos : List (K × K × K))
    (hin : ∀ x ∈ pos, InPhysDomain dx shift T.pz T.nz x.2.2 ∧ InPhysDomain dx shift T.py T.ny x.2.1 ∧
      InPhysDomain dx shift T.px T.nx x.1) :
    ∃ addr, rankAddress3 T dx shift pos = .ok addr ∧ addr.length = pos.length ∧
      ∀ (i : ℕ) x c, pos[i]? = some x → addr[i]? = some c →
        Valid3 T c ∧ InPhysBlock3 T dx shift c x ∧ ∀ d, InPhysBlock3 T dx shift d x → d = c := by
  have hhz : 0 < dx * (T.nz : K) := mul_pos hdx (by exact_mod_cast hnz)
  have hhy : 0 < dx * (T.ny : K) := mul_pos hdx (by exact_mod_cast hny)
  have hhx : 0 < dx * (T.nx : K) := mul_pos hdx (by exact_mod_cast hnx)
  have key : ∀ x ∈ pos, InPhysBlock3 T dx shift (subblock3 T dx shift x) x ∧ Valid3 T (subblock3 T dx shift x) := by
    intro x hx
    obtain ⟨hz, hy, hx'⟩ := hin x hx
    have d := (truncZ_block hhz hz.1 _).1 rfl
    have a := (truncZ_block hhy hy.1 _).1 rfl
    have b := (truncZ_block hhx hx'.1 _).1 rfl
    have rd := inPhys_range hhz hz d
    have ra := inPhys_range hhy hy a
    have rb := inPhys_range hhx hx' b
    exact ⟨⟨d, a, b⟩, rd.1, rd.2, ra.1, ra.2, rb.1, rb.2⟩
  refine ⟨pos.map (subblock3 T dx shift), ?_, by simp, ?_⟩
  · unfold rankAddress3
    simp only
    rw [if_neg]
    · rw [mapM_ok_of (g := id)]
      · simp
      · intro c hc
        obtain ⟨x, hx, rfl⟩ := List.mem_map.1 hc
        obtain ⟨-, h1, h2, h3, h4, h5, h6⟩ := key x hx
        rw [npIdx_of_range h1 h2, npIdx_of_range h3 h4, npIdx_of_range h5 h6]
        rfl
    · simp only [List.any_map, Bool.or_eq_true, List.any_eq_true, Function.comp, decide_eq_true_eq, not_or, not_exists,
        not_and, ge_iff_le, not_le]
      exact ⟨⟨fun x hx => (key x hx).2.2.2.2.2.2, fun x hx => (key x hx).2.2.2.2.1⟩, fun x hx => (key x hx).2.2.1⟩
  · intro i x c hp hc
    rw [List.getElem?_map, hp] at hc
    simp only [Option.map_some, Option.some.injEq] at hc
    subst hc
    have hx := List.mem_of_getElem? hp
    obtain ⟨k1, k2⟩ := key x hx
    refine ⟨k2, k1, ?_⟩
    intro d hd
    exact Prod.ext (inPhys_unique hhz hd.1 k1.1)
      (Prod.ext (inPhys_unique hhy hd.2.1 k1.2.1) (inPhys_unique hhx hd.2.2 k1.2.2))

/-- non-vacuity: two ranks along y, dx = 1/4, shift = 1/8: two nodes are given to the two ranks -/
example : rankAddress2 ⟨4, 2, 2, 1, 2, 2, false⟩ (1/4 : ℚ) (1/8) [(3/10, 2/10), (1/10 + 1/8, 9/10)] = .ok [(0, 0), (1, 0)] := by
  have h1 : truncZ (((2:ℚ)/10 - 1/8) / (1/4 * (2:ℕ))) = 0 := by norm_num [truncZ, Int.floor_eq_iff]
  have h2 : truncZ (((3:ℚ)/10 - 1/8) / (1/4 * (2:ℕ))) = 0 := by norm_num [truncZ, Int.floor_eq_iff]
  have h3 : truncZ (((9:ℚ)/10 - 1/8) / (1/4 * (2:ℕ))) = 1 := by norm_num [truncZ, Int.floor_eq_iff]
  have h4 : truncZ (((1:ℚ)/10 + 1/8 - 1/8) / (1/4 * (2:ℕ))) = 0 := by norm_num [truncZ, Int.floor_eq_iff]
  simp only [rankAddress2, subblock2, List.map_cons, List.map_nil, h1, h2, h3, h4]
  rfl

/-! ## C16: nodes outside the domain -/

/-- C16 (2D): the run is aborted exactly when some node lies at or beyond the upper end of the domain along some axis. -/
theorem mapping2_aborts_iff (T : Cart2) {dx shift : K} (hdx : 0 < dx) (hny : 0 < T.ny) (hnx : 0 < T.nx)
    (hpy : 0 < T.py) (hpx : 0 < T.px) (pos : List (K × K)) :
    rankAddress2 T dx shift pos = .error .mpiAbort ↔
      ∃ x ∈ pos, shift + T.py * (dx * T.ny) ≤ x.2 ∨ shift + T.px * (dx * T.nx) ≤ x.1 := by
  have hhy : 0 < dx * (T.ny : K) := mul_pos hdx (by exact_mod_cast hny)
  have hhx : 0 < dx * (T.nx : K) := mul_pos hdx (by exact_mod_cast hnx)
  have ey : ∀ x : K × K, (T.py : ℤ) ≤ (subblock2 T dx shift x).1 ↔ shift + T.py * (dx * T.ny) ≤ x.2 := by
    intro x
    unfold subblock2
    simp only
    rw [truncZ_ge (by exact_mod_cast hpy), ← (div_bounds hhy _).1]
    norm_num
  have ex : ∀ x : K × K, (T.px : ℤ) ≤ (subblock2 T dx shift x).2 ↔ shift + T.px * (dx * T.nx) ≤ x.1 := by
    intro x
    unfold subblock2
    simp only
    rw [truncZ_ge (by exact_mod_cast hpx), ← (div_bounds hhx _).1]
    norm_num
  have hno : ∀ l : List C2, l.mapM (fun c => match npIdx T.py c.1, npIdx T.px c.2 with
      | some i, some j => (.ok (i, j) : Except PyErr C2)
      | _, _ => .error .indexError) ≠ .error .mpiAbort := by
    intro l
    induction l with
    | nil => intro h; cases h
    | cons a t ih =>
      rw [List.mapM_cons]
      cases h1 : npIdx T.py a.1 <;> cases h2 : npIdx T.px a.2
      · intro h; cases h
      · intro h; cases h
      · intro h; cases h
      · intro h
        apply ih
        revert h
        cases List.mapM (fun c => match npIdx T.py c.1, npIdx T.px c.2 with
          | some i, some j => (.ok (i, j) : Except PyErr C2)
          | _, _ => .error .indexError) t with
        | error e => exact fun h => h
        | ok v => intro h; cases h
  unfold rankAddress2
  simp only
  split
  · rename_i h
    simp only [List.any_map, Bool.or_eq_true, List.any_eq_true, Function.comp, decide_eq_true_eq, ge_iff_le] at h
    refine ⟨fun _ => ?_, fun _ => rfl⟩
    rcases h with ⟨x, hx, h⟩ | ⟨x, hx, h⟩
    · exact ⟨x, hx, Or.inr ((ex x).1 h)⟩
    · exact ⟨x, hx, Or.inl ((ey x).1 h)⟩
  · rename_i h
    simp only [List.any_map, Bool.or_eq_true, List.any_eq_true, Function.comp, decide_eq_true_eq, ge_iff_le] at h
    refine ⟨fun hh => absurd hh (hno _), ?_⟩
    rintro ⟨x, hx, h' | h'⟩
    · exact absurd (Or.inr ⟨x, hx, (ey x).2 h'⟩) h
    · exact absurd (Or.inl ⟨x, hx, (ex x).2 h'⟩) h

/-- C16 (3D): the run is aborted exactly when some node lies at or beyond the upper end of the domain along some axis. -/
theorem mapping3_aborts_iff (T : Cart3) {dx shift : K} (hdx : 0 < dx) (hnz : 0 < T.nz) (hny : 0 < T.ny) (hnx : 0 < T.nx)
    (hpz : 0 < T.pz) (hpy : 0 < T.py) (hpx : 0 < T.px) (pos : List (K × K × K)) :
    rankAddress3 T dx shift pos = .error .mpiAbort ↔
      ∃ x ∈ pos, shift + T.pz * (dx * T.nz) ≤ x.2.2 ∨ shift + T.py * (dx * T.ny) ≤ x.2.1 ∨
        shift + T.px * (dx * T.nx) ≤ x.1 := by
  have hhz : 0 < dx * (T.nz : K) := mul_pos hdx (by exact_mod_cast hnz)
  have hhy : 0 < dx * (T.ny : K) := mul_pos hdx (by exact_mod_cast hny)
  have hhx : 0 < dx * (T.nx : K) := mul_pos hdx (by exact_mod_cast hnx)
  have ez : ∀ x : K × K × K, (T.pz : ℤ) ≤ (subblock3 T dx shift x).1 ↔ shift + T.pz * (dx * T.nz) ≤ x.2.2 := by
    intro x
    unfold subblock3
    simp only
    rw [truncZ_ge (by exact_mod_cast hpz), ← (div_bounds hhz _).1]
    norm_num
  have ey : ∀ x : K × K × K, (T.py : ℤ) ≤ (subblock3 T dx shift x).2.1 ↔ shift + T.py * (dx * T.ny) ≤ x.2.1 := by
    intro x
    unfold subblock3
    simp only
    rw [truncZ_ge (by exact_mod_cast hpy), ← (div_bounds hhy _).1]
    norm_num
  have ex : ∀ x : K × K × K, (T.px : ℤ) ≤ (subblock3 T dx shift x).2.2 ↔ shift + T.px * (dx * T.nx) ≤ x.1 := by
    intro x
    unfold subblock3
    simp only
    rw [truncZ_ge (by exact_mod_cast hpx), ← (div_bounds hhx _).1]
    norm_num
  have hno : ∀ l : List C3, l.mapM (fun c => match npIdx T.pz c.1, npIdx T.py c.2.1, npIdx T.px c.2.2 with
      | some i, some j, some k => (.ok (i, j, k) : Except PyErr C3)
      | _, _, _ => .error .indexError) ≠ .error .mpiAbort := by
    intro l
    induction l with
    | nil => intro h; cases h
    | cons a t ih =>
      rw [List.mapM_cons]
      cases h1 : npIdx T.pz a.1 <;> cases h2 : npIdx T.py a.2.1 <;> cases h3 : npIdx T.px a.2.2
      case some.some.some =>
        intro h
        apply ih
        revert h
        cases List.mapM (fun c => match npIdx T.pz c.1, npIdx T.py c.2.1, npIdx T.px c.2.2 with
          | some i, some j, some k => (.ok (i, j, k) : Except PyErr C3)
          | _, _, _ => .error .indexError) t with
        | error e => exact fun h => h
        | ok v => intro h; cases h
      all_goals intro h; cases h
  unfold rankAddress3
  simp only
  split
  · rename_i h
    simp only [List.any_map, Bool.or_eq_true, List.any_eq_true, Function.comp, decide_eq_true_eq, ge_iff_le] at h
    refine ⟨fun _ => ?_, fun _ => rfl⟩
    rcases h with (⟨x, hx, h⟩ | ⟨x, hx, h⟩) | ⟨x, hx, h⟩
    · exact ⟨x, hx, Or.inr (Or.inr ((ex x).1 h))⟩
    · exact ⟨x, hx, Or.inr (Or.inl ((ey x).1 h))⟩
    · exact ⟨x, hx, Or.inl ((ez x).1 h)⟩
  · rename_i h
    simp only [List.any_map, Bool.or_eq_true, List.any_eq_true, Function.comp, decide_eq_true_eq, ge_iff_le] at h
    refine ⟨fun hh => absurd hh (hno _), ?_⟩
    rintro ⟨x, hx, h' | h' | h'⟩
    · exact absurd (Or.inr ⟨x, hx, (ez x).2 h'⟩) h
    · exact absurd (Or.inl (Or.inr ⟨x, hx, (ey x).2 h'⟩)) h
    · exact absurd (Or.inl (Or.inl ⟨x, hx, (ex x).2 h'⟩)) h

theorem truncZ_below {dx s : K} {n : ℕ} {x : K} (hh : 0 < dx * n) {k : ℕ}
    (h1 : s - (k + 1) * (dx * n) < x) (h2 : x ≤ s - k * (dx * n)) (h3 : x < s) :
    truncZ ((x - s) / (dx * n)) = -k := by
  have hneg : ¬ 0 ≤ (x - s) / (dx * n) := by
    push Not
    exact div_neg_of_neg_of_pos (by linarith) hh
  unfold truncZ
  rw [if_neg hneg, Int.ceil_eq_iff]
  constructor
  · rw [lt_div_iff₀ hh]; push_cast; linarith
  · rw [div_le_iff₀ hh]; push_cast; linarith

/-- C16: below the lower end nothing aborts. A node `k` whole blocks below the domain along x (and inside it along y) is
silently given to a rank: to the first block along x for `k = 0`, to block `px - k`, counted from the other end, for
`1 ≤ k ≤ px`. -/
theorem mapping2_below_accepted (T : Cart2) {dx shift : K} (hdx : 0 < dx) (hny : 0 < T.ny) (hnx : 0 < T.nx)
    (hpx : 0 < T.px) {x y : K} {k : ℕ} (hk : k ≤ T.px)
    (h1 : shift - (k + 1) * (dx * T.nx) < x) (h2 : x ≤ shift - k * (dx * T.nx)) (h3 : x < shift)
    (hy : InPhysDomain dx shift T.py T.ny y) :
    ∃ cy, rankAddress2 T dx shift [(x, y)] = .ok [(cy, if k = 0 then 0 else (T.px : ℤ) - k)] := by
  have hhy : 0 < dx * (T.ny : K) := mul_pos hdx (by exact_mod_cast hny)
  have hhx : 0 < dx * (T.nx : K) := mul_pos hdx (by exact_mod_cast hnx)
  have a := (truncZ_block hhy hy.1 _).1 rfl
  have ra := inPhys_range hhy hy a
  have hb := truncZ_below hhx h1 h2 h3
  refine ⟨truncZ ((y - shift) / (dx * T.ny)), ?_⟩
  unfold rankAddress2 subblock2
  simp only [List.map_cons, List.map_nil, hb]
  rw [if_neg]
  · rw [List.mapM_cons, List.mapM_nil]
    simp only
    rw [npIdx_of_range ra.1 ra.2]
    by_cases h0 : k = 0
    · subst h0
      rw [npIdx_of_range (by simp) (by push_cast; omega)]
      rfl
    · have : npIdx T.px (-(k : ℤ)) = some ((T.px : ℤ) - k) := by
        unfold npIdx
        rw [if_neg (by omega), if_pos (by omega)]
        congr 1; ring
      rw [this, if_neg h0]
      rfl
  · simp only [List.any_cons, List.any_nil, Bool.or_false, Bool.or_eq_true, decide_eq_true_eq, ge_iff_le, not_or, not_le]
    exact ⟨by omega, ra.2⟩

/-- C16 is violated below the domain: there are positions outside the domain for which the run is not aborted. -/
theorem mapping2_outside_not_refused :
    ∃ (T : Cart2) (dx shift x y : ℚ), 0 < dx ∧ mkCart2 4 4 2 2 false = .ok T ∧
      ¬ InPhysDomain dx shift T.px T.nx x ∧ ∃ addr, rankAddress2 T dx shift [(x, y)] = .ok addr := by
  refine ⟨⟨4, 4, 2, 2, 2, 2, false⟩, 1, 1/2, -2, 1, by norm_num, rfl, ?_, ?_⟩
  · unfold InPhysDomain; norm_num
  · obtain ⟨cy, h⟩ := mapping2_below_accepted (K := ℚ) ⟨4, 4, 2, 2, 2, 2, false⟩ (dx := 1) (shift := 1/2) (by norm_num)
      (by norm_num) (by norm_num) (by norm_num) (x := -2) (y := 1) (k := 1) (by norm_num) (by norm_num) (by norm_num)
      (by norm_num) ⟨by norm_num, by norm_num⟩
    exact ⟨_, h⟩

end Mapping

/-! ## C15 (counts) and C17: scatter and gather -/

section Comm
variable {R α : Type} [DecidableEq R]

theorem mem_whereEq {addr : List R} {r : R} {i : ℕ} : i ∈ whereEq addr r ↔ addr[i]? = some r := by
  unfold whereEq
  simp only [List.mem_filter, List.mem_range, decide_eq_true_eq, and_iff_right_iff_imp]
  intro h
  exact (List.getElem?_eq_some_iff.1 h).1

theorem whereEq_sorted (addr : List R) (r : R) : (whereEq addr r).Pairwise (· < ·) := by
  unfold whereEq
  exact List.Pairwise.filter _ List.pairwise_lt_range

theorem whereEq_nodup (addr : List R) (r : R) : (whereEq addr r).Nodup :=
  (whereEq_sorted addr r).imp (fun h => ne_of_lt h)

theorem whereEq_length (addr : List R) (r : R) : (whereEq addr r).length = localCount addr r := by
  unfold whereEq localCount
  rw [← List.countP_eq_length_filter]
  conv_rhs => rw [← List.map_id addr]
  have h2 : (List.range addr.length).map (fun i => addr[i]?) = addr.map some := by
    apply List.ext_getElem
    · simp
    · intro i h1 h2; simp
  have h3 : List.countP (fun o => decide (o = some r)) ((List.range addr.length).map (fun i => addr[i]?))
      = List.countP (fun o => decide (o = some r)) (addr.map some) := by rw [h2]
  rw [List.countP_map, List.countP_map] at h3
  simp only [List.map_id]
  rw [show (fun x => decide (x = r)) = (fun o => decide (o = some r)) ∘ some by funext x; simp]
  exact h3

/-- C15: every node index belongs to the index list of exactly one rank, and only nodes do. -/
theorem lag_node_one_owner (addr : List R) (i : ℕ) (hi : i < addr.length) : ∃! r, i ∈ whereEq addr r := by
  refine ⟨addr[i], ?_, ?_⟩
  · simp only [mem_whereEq]; exact List.getElem?_eq_getElem hi
  · intro r hr
    simp only [mem_whereEq] at hr
    rw [List.getElem?_eq_getElem hi] at hr
    exact (Option.some.inj hr).symm

/-- C15: the local node counts of all ranks sum to the number of nodes. -/
theorem lag_counts_sum (addr : List R) (ranks : List R) (hn : ranks.Nodup) (h : ∀ r ∈ addr, r ∈ ranks) :
    (ranks.map (localCount addr)).sum = addr.length := by
  induction addr with
  | nil =>
    have : ranks.map (localCount ([] : List R)) = ranks.map (fun _ => 0) := by
      apply List.map_congr_left; intro r _; simp [localCount]
    rw [this]; simp
  | cons a t ih =>
    have iht := ih (fun r hr => h r (by simp [hr]))
    have ha : a ∈ ranks := h a (by simp)
    have hcount : ∀ r, localCount (a :: t) r = localCount t r + if a = r then 1 else 0 := by
      intro r
      unfold localCount
      rw [List.countP_cons]
      simp
    have : (ranks.map (localCount (a :: t))).sum
        = (ranks.map (localCount t)).sum + (ranks.map (fun r => if a = r then 1 else 0)).sum := by
      rw [← List.sum_map_add]
      congr 1
      apply List.map_congr_left
      intro r _
      exact hcount r
    rw [this, iht]
    have hone : (ranks.map (fun r => if a = r then 1 else 0)).sum = 1 := by
      clear this iht hcount ih h
      induction ranks with
      | nil => cases ha
      | cons b s ihs =>
        rw [List.map_cons, List.sum_cons]
        have hb := List.nodup_cons.1 hn
        by_cases hab : a = b
        · subst hab
          have hz : (s.map (fun r => if a = r then 1 else 0)).sum = 0 := by
            apply List.sum_eq_zero
            intro x hx
            obtain ⟨r, hr, rfl⟩ := List.mem_map.1 hx
            rw [if_neg]
            rintro rfl
            exact hb.1 hr
          rw [hz]; simp
        · have has : a ∈ s := by
            rcases List.mem_cons.1 ha with h | h
            · exact absurd h hab
            · exact h
          rw [if_neg hab, ihs hb.2 has]
    rw [hone]; simp

theorem irange_nodup (n : ℕ) : (irange n).Nodup := by
  unfold irange
  exact List.Nodup.map (fun a b h => by simpa using h) List.nodup_range

theorem ranks2_nodup (T : Cart2) : (ranks2 T).Nodup := by
  unfold ranks2
  rw [List.nodup_flatMap]
  refine ⟨fun a _ => List.Nodup.map (fun x y h => (Prod.ext_iff.1 h).2) (irange_nodup _), ?_⟩
  refine (irange_nodup T.py).imp ?_
  intro a b hab x hx hy
  obtain ⟨_, _, rfl⟩ := List.mem_map.1 hx
  obtain ⟨_, _, he⟩ := List.mem_map.1 hy
  exact hab (Prod.ext_iff.1 he).1.symm

theorem ranks3_nodup (T : Cart3) : (ranks3 T).Nodup := by
  unfold ranks3
  rw [List.nodup_flatMap]
  refine ⟨fun a _ => ?_, ?_⟩
  · rw [List.nodup_flatMap]
    refine ⟨fun b _ => List.Nodup.map (fun x y h => (Prod.ext_iff.1 (Prod.ext_iff.1 h).2).2) (irange_nodup _), ?_⟩
    refine (irange_nodup T.py).imp ?_
    intro b d hbd x hx hy
    obtain ⟨_, _, rfl⟩ := List.mem_map.1 hx
    obtain ⟨_, _, he⟩ := List.mem_map.1 hy
    exact hbd (Prod.ext_iff.1 (Prod.ext_iff.1 he).2).1.symm
  · refine (irange_nodup T.pz).imp ?_
    intro a b hab x hx hy
    obtain ⟨_, _, hx⟩ := List.mem_flatMap.1 hx
    obtain ⟨_, _, rfl⟩ := List.mem_map.1 hx
    obtain ⟨_, _, hy⟩ := List.mem_flatMap.1 hy
    obtain ⟨_, _, he⟩ := List.mem_map.1 hy
    exact hab (Prod.ext_iff.1 he).1.symm

/-- C15 (2D and 3D): the local node counts over all ranks of the topology sum to the number of nodes. -/
theorem lag_counts_sum_topology :
    (∀ (T : Cart2) (addr : List C2), (∀ c ∈ addr, Valid2 T c) →
      ((ranks2 T).map (localCount addr)).sum = addr.length) ∧
    (∀ (T : Cart3) (addr : List C3), (∀ c ∈ addr, Valid3 T c) →
      ((ranks3 T).map (localCount addr)).sum = addr.length) :=
  ⟨fun T addr h => lag_counts_sum addr _ (ranks2_nodup T) (fun c hc => mem_ranks2.2 (h c hc)),
   fun T addr h => lag_counts_sum addr _ (ranks3_nodup T) (fun c hc => mem_ranks3.2 (h c hc))⟩

theorem ravelLag_length (d n : ℕ) (A : LagField α) : (ravelLag d n A).length = d * n := by
  unfold ravelLag
  rw [List.length_flatMap]
  simp

theorem ravelLag_get (d n : ℕ) (A : LagField α) {k j : ℕ} (hk : k < d) (hj : j < n) :
    (ravelLag d n A)[k * n + j]? = some (A k j) := by
  induction d with
  | zero => omega
  | succ d ih =>
    unfold ravelLag at *
    rw [List.range_succ, List.flatMap_append]
    have hl : (List.flatMap (fun k => (List.range n).map fun j => A k j) (List.range d)).length = d * n := by
      rw [List.length_flatMap]; simp
    by_cases h : k < d
    · rw [List.getElem?_append_left]
      · exact ih h
      · rw [hl]; nlinarith
    · have hkd : k = d := by omega
      subst hkd
      rw [List.getElem?_append_right (by rw [hl]; omega), hl]
      simp [hj]

/-- C17: `scatter_global_field` gives rank `r` the values of its nodes, in increasing node order. -/
theorem scatterLag_correct (d : ℕ) (addr : List R) {m : R} {order : List R} (ho : SlaveSet addr m order)
    (G : LagField α) (loc : R → LagField α) (r : R) {k j : ℕ} (hk : k < d) (hj : j < localCount addr r) :
    ∃ i, (whereEq addr r)[j]? = some i ∧ addr[i]? = some r ∧ scatterLag d addr m order G loc r k j = G k i := by
  have hj' : j < (whereEq addr r).length := by rw [whereEq_length]; exact hj
  refine ⟨(whereEq addr r)[j], List.getElem?_eq_getElem hj', ?_, ?_⟩
  · exact mem_whereEq.1 (List.getElem_mem hj')
  · unfold scatterLag
    split
    · rename_i h; subst h
      simp only
      rw [if_pos ⟨hk, hj⟩]
      unfold cols
      rw [List.getElem?_eq_getElem hj']
    · rename_i hrm
      have hr : r ∈ order := by
        rw [ho.2]
        refine ⟨?_, hrm⟩
        have := mem_whereEq.1 (List.getElem_mem hj')
        exact List.mem_of_getElem? this
      rw [if_pos hr]
      unfold fillLag
      rw [if_pos ⟨hk, hj⟩, whereEq_length, ravelLag_get d _ _ hk hj]
      simp only
      unfold cols
      rw [List.getElem?_eq_getElem hj']

/-- C17: after `gather_local_field` the global field holds for each node the value of its rank at the node's local position;
a node is at position `j` of rank `r` when it is the `j`-th node of `r` in increasing order. -/
theorem gatherLag_correct (d : ℕ) (addr : List R) {m : R} {order : List R} (ho : SlaveSet addr m order)
    (loc : R → LagField α) (junk G : LagField α) {r : R} {i j k : ℕ} (hk : k < d)
    (hij : (whereEq addr r)[j]? = some i) :
    gatherLag d addr m order loc junk G k i = loc r k j := by
  have hj : j < (whereEq addr r).length := (List.getElem?_eq_some_iff.1 hij).1
  have hi : i ∈ whereEq addr r := List.mem_of_getElem? hij
  have hidx : (whereEq addr r).idxOf i = j := by
    have hv : (whereEq addr r)[j] = i := (List.getElem?_eq_some_iff.1 hij).2
    rw [← hv]
    exact (whereEq_nodup addr r).idxOf_getElem j hj
  have hother : ∀ r', r' ≠ r → i ∉ whereEq addr r' := by
    intro r' hne h
    rw [mem_whereEq] at h hi
    rw [h] at hi
    exact hne (Option.some.inj hi)
  have key : ∀ (l : List R) (A : LagField α), (r ∉ l → A k i = loc r k j) →
      l.foldl (fun G r =>
        let idx := whereEq addr r
        let buf := ravelLag d (localCount addr r) (loc r)
        setCols d idx (fillLag d idx.length buf junk) G) A k i = loc r k j := by
    intro l
    induction l with
    | nil => intro A h; exact h (by simp)
    | cons a t ih =>
      intro A h
      rw [List.foldl_cons]
      apply ih
      intro hrt
      simp only [setCols]
      by_cases hra : a = r
      · subst hra
        rw [if_pos ⟨hk, hi⟩, hidx]
        unfold fillLag
        rw [if_pos ⟨hk, hj⟩, whereEq_length, ravelLag_get _ _ _ hk (by rw [← whereEq_length]; exact hj)]
      · rw [if_neg (fun h => hother a hra h.2)]
        apply h
        rw [List.mem_cons, not_or]
        exact ⟨fun h => hra h.symm, hrt⟩
  unfold gatherLag
  apply key
  intro hro
  have hrm : r = m := by
    by_contra hne
    apply hro
    rw [ho.2]
    exact ⟨List.mem_of_getElem? (mem_whereEq.1 hi), hne⟩
  subst hrm
  unfold setCols
  rw [if_pos ⟨hk, hi⟩, hidx]

/-- C17: gathering what has been scattered gives every component of every node its value back. -/
theorem gatherLag_scatterLag (d : ℕ) (addr : List R) {m : R} {o1 o2 : List R} (h1 : SlaveSet addr m o1)
    (h2 : SlaveSet addr m o2) (G junk G' : LagField α) (loc : R → LagField α) {k i : ℕ} (hk : k < d)
    (hi : i < addr.length) :
    gatherLag d addr m o2 (scatterLag d addr m o1 G loc) junk G' k i = G k i := by
  have hmem : i ∈ whereEq addr addr[i] := mem_whereEq.2 (List.getElem?_eq_getElem hi)
  obtain ⟨j, hj, he⟩ := List.getElem_of_mem hmem
  have hij : (whereEq addr addr[i])[j]? = some i := by rw [List.getElem?_eq_getElem hj, he]
  rw [gatherLag_correct d addr h2 _ junk G' hk hij]
  obtain ⟨i', hi', -, hs⟩ := scatterLag_correct d addr h1 G loc addr[i] hk (j := j) (by rw [← whereEq_length]; exact hj)
  rw [hs]
  rw [hij] at hi'
  rw [Option.some.inj hi']

/-- C17: scattering what has been gathered restores every local value of every rank. -/
theorem scatterLag_gatherLag (d : ℕ) (addr : List R) {m : R} {o1 o2 : List R} (h1 : SlaveSet addr m o1)
    (h2 : SlaveSet addr m o2) (G junk : LagField α) (loc loc' : R → LagField α) {r : R} {k j : ℕ} (hk : k < d)
    (hj : j < localCount addr r) :
    scatterLag d addr m o2 (gatherLag d addr m o1 loc junk G) loc' r k j = loc r k j := by
  obtain ⟨i, hi, -, hs⟩ := scatterLag_correct d addr h2 (gatherLag d addr m o1 loc junk G) loc' r hk hj
  rw [hs, gatherLag_correct d addr h1 loc junk G hk hi]

/-- non-vacuity: the set of slave ranks can be iterated -/
theorem slaveSet_exists (addr : List R) (m : R) : ∃ order, SlaveSet addr m order :=
  ⟨(addr.filter (· ≠ m)).dedup, List.nodup_dedup _, by intro r; simp⟩

/-- non-vacuity: four nodes on ranks 0, 1, 0, 2; rank 0 is master: its second node is node 2 -/
example : SlaveSet [0, 1, 0, 2] 0 [2, 1] ∧ scatterLag 2 [0, 1, 0, 2] 0 [2, 1] (fun k i => 10 * k + i) (fun _ _ _ => 99) 0 1 1 = 12 ∧
    scatterLag 2 [0, 1, 0, 2] 0 [2, 1] (fun k i => 10 * k + i) (fun _ _ _ => 99) 2 1 0 = 13 := by
  refine ⟨⟨by decide, ?_⟩, by decide, by decide⟩
  intro r; simp; omega

end Comm
end Sopht
