import Verif.Cart

/-!
# Specifications

Small definitions, independent of the model's helper functions, that the property theorems are stated with.
-/

namespace Sopht

/-- Neighbour in direction `s` (specification used throughout): both axes must have a neighbour. -/
def nbr2 (T : Cart2) (c s : C2) : Option C2 :=
  match axisNbr T.py T.per c.1 s.1, axisNbr T.px T.per c.2 s.2 with
  | some a, some b => some (a, b)
  | _, _ => none

/-- Neighbour in direction `s`, 3D. -/
def nbr3 (T : Cart3) (c s : C3) : Option C3 :=
  match axisNbr T.pz T.per c.1 s.1, axisNbr T.py T.per c.2.1 s.2.1, axisNbr T.px T.per c.2.2 s.2.2 with
  | some a, some b, some d => some (a, b, d)
  | _, _, _ => none

/-- Global cell `G` belongs to the inner block of the rank with coordinates `c`: the block starts at
`c * local_grid_size` and has `local_grid_size` cells. -/
def InBlock2 (T : Cart2) (c G : C2) : Prop :=
  c.1 * T.ny ≤ G.1 ∧ G.1 < c.1 * T.ny + T.ny ∧ c.2 * T.nx ≤ G.2 ∧ G.2 < c.2 * T.nx + T.nx

/-- 3D version of `InBlock2`. -/
def InBlock3 (T : Cart3) (c G : C3) : Prop :=
  c.1 * T.nz ≤ G.1 ∧ G.1 < c.1 * T.nz + T.nz ∧ c.2.1 * T.ny ≤ G.2.1 ∧ G.2.1 < c.2.1 * T.ny + T.ny ∧
    c.2.2 * T.nx ≤ G.2.2 ∧ G.2.2 < c.2.2 * T.nx + T.nx

/-- `G` is a cell of the global grid. -/
def InDomain2 (T : Cart2) (G : C2) : Prop := 0 ≤ G.1 ∧ G.1 < T.gy ∧ 0 ≤ G.2 ∧ G.2 < T.gx

/-- `G` is a cell of the global grid. -/
def InDomain3 (T : Cart3) (G : C3) : Prop :=
  0 ≤ G.1 ∧ G.1 < T.gz ∧ 0 ≤ G.2.1 ∧ G.2.1 < T.gy ∧ 0 ≤ G.2.2 ∧ G.2.2 < T.gx

/-- On which side of the inner cells `[g, g+n)` of an axis the local index `i` lies: -1, 0 or 1. -/
def zone (g n i : ℤ) : ℤ := if i < g then -1 else if i < g + n then 0 else 1

/-- `(i, j)` is an index of a local array with ghost cells. -/
def InArr2 (T : Cart2) (g : ℤ) (p : C2) : Prop :=
  0 ≤ p.1 ∧ p.1 < T.ny + 2 * g ∧ 0 ≤ p.2 ∧ p.2 < T.nx + 2 * g

/-- `p` is an index of a local array with ghost cells. -/
def InArr3 (T : Cart3) (g : ℤ) (p : C3) : Prop :=
  0 ≤ p.1 ∧ p.1 < T.nz + 2 * g ∧ 0 ≤ p.2.1 ∧ p.2.1 < T.ny + 2 * g ∧ 0 ≤ p.2.2 ∧ p.2.2 < T.nx + 2 * g

/-- `p` is an inner (non-ghost) index. -/
def Inner2 (T : Cart2) (g : ℤ) (p : C2) : Prop :=
  g ≤ p.1 ∧ p.1 < g + T.ny ∧ g ≤ p.2 ∧ p.2 < g + T.nx

/-- `p` is an inner (non-ghost) index. -/
def Inner3 (T : Cart3) (g : ℤ) (p : C3) : Prop :=
  g ≤ p.1 ∧ p.1 < g + T.nz ∧ g ≤ p.2.1 ∧ p.2.1 < g + T.ny ∧ g ≤ p.2.2 ∧ p.2.2 < g + T.nx

/-- What a halo exchange must leave in local cell `p` of rank `c`: the inner value of the neighbour that owns the cell,
if the exchange covers that direction and the neighbour exists; the old value otherwise. -/
def halo2 {α : Type} (T : Cart2) (g : ℤ) (full : Bool) (w : C2 → C2 → α) (c p : C2) : α :=
  let s : C2 := (zone g T.ny p.1, zone g T.nx p.2)
  if s = (0, 0) ∨ (full = false ∧ s.1 ≠ 0 ∧ s.2 ≠ 0) then w c p
  else match nbr2 T c s with
    | some d => w d (p.1 - s.1 * T.ny, p.2 - s.2 * T.nx)
    | none => w c p

/-- Number of axes along which a direction is non-zero: 1 face, 2 edge, 3 vertex. -/
def dirRank (s : C3) : ℕ := (if s.1 ≠ 0 then 1 else 0) + (if s.2.1 ≠ 0 then 1 else 0) + (if s.2.2 ≠ 0 then 1 else 0)

/-- 3D version of `halo2`: without `full` only faces are exchanged. -/
def halo3 {α : Type} (T : Cart3) (g : ℤ) (full : Bool) (w : C3 → C3 → α) (c p : C3) : α :=
  let s : C3 := (zone g T.nz p.1, zone g T.ny p.2.1, zone g T.nx p.2.2)
  if dirRank s = 0 ∨ (full = false ∧ 2 ≤ dirRank s) then w c p
  else match nbr3 T c s with
    | some d => w d (p.1 - s.1 * T.nz, p.2.1 - s.2.1 * T.ny, p.2.2 - s.2.2 * T.nx)
    | none => w c p

end Sopht

namespace Sopht

/-- Global index of local cell `p` (ghost cells included) of rank `c`: block start plus local index minus ghost size. -/
def globalIx2 (T : Cart2) (g : ℤ) (c p : C2) : C2 := (c.1 * T.ny + p.1 - g, c.2 * T.nx + p.2 - g)

/-- 3D version of `globalIx2`. -/
def globalIx3 (T : Cart3) (g : ℤ) (c p : C3) : C3 :=
  (c.1 * T.nz + p.1 - g, c.2.1 * T.ny + p.2.1 - g, c.2.2 * T.nx + p.2.2 - g)

/-- Wrap a global index around a periodic domain. -/
def wrap2 (T : Cart2) (G : C2) : C2 := (G.1 % T.gy, G.2 % T.gx)

/-- Wrap a global index around a periodic domain. -/
def wrap3 (T : Cart3) (G : C3) : C3 := (G.1 % T.gz, G.2.1 % T.gy, G.2.2 % T.gx)

end Sopht
