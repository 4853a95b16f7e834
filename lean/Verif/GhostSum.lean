import Verif.Blocking
import Verif.Ghost2D
import Mathlib.Algebra.Ring.Defs

/-!
# Ghost sum

Models `MPIGhostSumCommunicator2D` (`EulerianLagrangianGridCommunicatorMPI2D.py:521-652`) and `MPIGhostSumCommunicator3D`
(`EulerianLagrangianGridCommunicatorMPI3D.py:592-792`), both in
`sopht_mpi/numeric/immersed_boundary_ops/`.  Local arrays are functions of the index (0-based, ghost cells included); the
receive buffers are part of the state because they persist between calls.  Arithmetic is exact (`x *= 0` gives 0).
-/

namespace Sopht

variable {α : Type} [Semiring α]

/-- What a `Recv` leaves in the receive buffer: the payload, or the old content when the source is PROC_NULL. -/
def recvInto {ι : Type} (old : ι → α) : Option (ι → α) → ι → α
  | some m => m
  | none => old

/-- Local state of a rank: field, `row_buffer`, `col_buffer` (2D:556-561). -/
structure GS2 (α : Type) where
  A : C2 → α
  row : C2 → α
  col : C2 → α

/-- `field[lo : lo + g, :] += row_buffer` -/
def addRows (T : Cart2) (g : ℕ) (lo : ℤ) (b A : C2 → α) : C2 → α := fun p =>
  if (lo ≤ p.1 ∧ p.1 < lo + g) ∧ (0 ≤ p.2 ∧ p.2 < cols2 T g) then A p + b (p.1 - lo, p.2) else A p

/-- `field[:, lo : lo + g] += col_buffer` -/
def addCols (T : Cart2) (g : ℕ) (lo : ℤ) (b A : C2 → α) : C2 → α := fun p =>
  if (0 ≤ p.1 ∧ p.1 < rows2 T g) ∧ (lo ≤ p.2 ∧ p.2 < lo + g) then A p + b (p.1, p.2 - lo) else A p

/-- Element `(r, j)` of a row message: `row_type` is `g * field_size[1]` consecutive elements (2D:543-546) starting at row `lo`. -/
def rowPay (lo : ℤ) (A : C2 → α) : C2 → α := fun q => A (lo + q.1, q.2)

/-- Element `(i, s)` of a column message: `column_type` has `field_size[0]` blocks of `g` elements, `field_size[1]` apart
(2D:548-552), starting at position `o` of `local_field.ravel()`. -/
def colPay (T : Cart2) (g : ℕ) (o : ℤ) (A : C2 → α) : C2 → α := fun q =>
  let f := o + q.1 * cols2 T g + q.2
  A (f / cols2 T g, f % cols2 T g)

/-- The four phases of `ghost_sum` (2D:575-643). -/
def gsPhase2 (T : Cart2) (g : ℕ) : ℕ → Phase C2 (GS2 α) (C2 → α)
  | 0 => -- Along Y: send to next block, receive from previous block (575-591)
    { dst := nextY2 T, src := prevY2 T
      pay := fun l => rowPay (rows2 T g - g) l.A
      app := fun l m =>
        let b := recvInto l.row m
        { l with A := addRows T g g b l.A, row := fun p => b p * 0 } }
  | 1 => -- Along X: send to next block, receive from previous block (593-609)
    { dst := nextX2 T, src := prevX2 T
      pay := fun l => colPay T g (cols2 T g - g) l.A
      app := fun l m =>
        let b := recvInto l.col m
        { l with A := addCols T g g b l.A, col := fun p => b p * 0 } }
  | 2 => -- Along Y: send to previous block, receive from next block (611-626)
    { dst := prevY2 T, src := nextY2 T
      pay := fun l => rowPay 0 l.A
      app := fun l m =>
        let b := recvInto l.row m
        { l with A := addRows T g (rows2 T g - 2 * g) b l.A, row := fun p => b p * 0 } }
  | _ => -- Along X: send to previous block, receive from next block (628-643)
    { dst := prevX2 T, src := nextX2 T
      pay := fun l => colPay T g 0 l.A
      app := fun l m =>
        let b := recvInto l.col m
        { l with A := addCols T g (cols2 T g - 2 * g) b l.A, col := fun p => b p * 0 } }

/-- `clear_ghost_cells` (2D:648-652). -/
def clearGhosts2 (T : Cart2) (g : ℕ) (A : C2 → α) : C2 → α := fun p =>
  let A1 := if p.1 < g then A p * 0 else A p
  let A2 := if rows2 T g - g ≤ p.1 then A1 * 0 else A1
  let A3 := if p.2 < g then A2 * 0 else A2
  if cols2 T g - g ≤ p.2 then A3 * 0 else A3

/-- State of a communicator whose buffers have just been created (2D:556-561) and a field. -/
def gsInit2 (A : C2 → α) : GS2 α := ⟨A, fun _ => 0, fun _ => 0⟩

/-- `ghost_sum(local_field)` on every rank in lock step (`blocking_deterministic` shows that this is what every execution
computes); the result on rank `c`. -/
def ghostSum2 (T : Cart2) (g : ℕ) (l : C2 → GS2 α) (c : C2) : GS2 α :=
  let r := syncRun (gsPhase2 T g) l 4 c
  { r with A := clearGhosts2 T g r.A }

/-- 3D local state: field and the three receive buffers (3D:664-675). -/
structure GS3 (α : Type) where
  A : C3 → α
  bz : C3 → α
  by' : C3 → α
  bx : C3 → α

/-- `local_field.shape` in 3D, per axis. -/
def ext (n g : ℕ) : ℤ := n + 2 * g

/-- `field[lo : lo + g, :, :] += buffer` -/
def addZ (T : Cart3) (g : ℕ) (lo : ℤ) (b A : C3 → α) : C3 → α := fun p =>
  if (lo ≤ p.1 ∧ p.1 < lo + g) ∧ (0 ≤ p.2.1 ∧ p.2.1 < ext T.ny g) ∧ (0 ≤ p.2.2 ∧ p.2.2 < ext T.nx g) then
    A p + b (p.1 - lo, p.2.1, p.2.2) else A p
/-- `field[:, lo : lo + g, :] += buffer` -/
def addY (T : Cart3) (g : ℕ) (lo : ℤ) (b A : C3 → α) : C3 → α := fun p =>
  if (0 ≤ p.1 ∧ p.1 < ext T.nz g) ∧ (lo ≤ p.2.1 ∧ p.2.1 < lo + g) ∧ (0 ≤ p.2.2 ∧ p.2.2 < ext T.nx g) then
    A p + b (p.1, p.2.1 - lo, p.2.2) else A p
/-- `field[:, :, lo : lo + g] += buffer` -/
def addX (T : Cart3) (g : ℕ) (lo : ℤ) (b A : C3 → α) : C3 → α := fun p =>
  if (0 ≤ p.1 ∧ p.1 < ext T.nz g) ∧ (0 ≤ p.2.1 ∧ p.2.1 < ext T.ny g) ∧ (lo ≤ p.2.2 ∧ p.2.2 < lo + g) then
    A p + b (p.1, p.2.1, p.2.2 - lo) else A p

/-- Subarray message with the given `starts` (3D:617-662; `Create_subarray`, trusted MPI semantics). -/
def subPay (st : C3) (A : C3 → α) : C3 → α := fun q => A (st.1 + q.1, st.2.1 + q.2.1, st.2.2 + q.2.2)

/-- The six phases of the 3D `ghost_sum` (3D:690-781). -/
def gsPhase3 (T : Cart3) (g : ℕ) : ℕ → Phase C3 (GS3 α) (C3 → α)
  | 0 => -- Z: to next, from previous (690-704)
    { dst := nextZ3 T, src := prevZ3 T
      pay := fun l => subPay (ext T.nz g - g, 0, 0) l.A
      app := fun l m => let b := recvInto l.bz m; { l with A := addZ T g g b l.A, bz := fun p => b p * 0 } }
  | 1 => -- Y: to next, from previous (706-720)
    { dst := nextY3 T, src := prevY3 T
      pay := fun l => subPay (0, ext T.ny g - g, 0) l.A
      app := fun l m => let b := recvInto l.by' m; { l with A := addY T g g b l.A, by' := fun p => b p * 0 } }
  | 2 => -- X: to next, from previous (722-736)
    { dst := nextX3 T, src := prevX3 T
      pay := fun l => subPay (0, 0, ext T.nx g - g) l.A
      app := fun l m => let b := recvInto l.bx m; { l with A := addX T g g b l.A, bx := fun p => b p * 0 } }
  | 3 => -- Z: to previous, from next (738-751)
    { dst := prevZ3 T, src := nextZ3 T
      pay := fun l => subPay (0, 0, 0) l.A
      app := fun l m =>
        let b := recvInto l.bz m; { l with A := addZ T g (ext T.nz g - 2 * g) b l.A, bz := fun p => b p * 0 } }
  | 4 => -- Y: to previous, from next (753-766)
    { dst := prevY3 T, src := nextY3 T
      pay := fun l => subPay (0, 0, 0) l.A
      app := fun l m =>
        let b := recvInto l.by' m; { l with A := addY T g (ext T.ny g - 2 * g) b l.A, by' := fun p => b p * 0 } }
  | _ => -- X: to previous, from next (768-781)
    { dst := prevX3 T, src := nextX3 T
      pay := fun l => subPay (0, 0, 0) l.A
      app := fun l m =>
        let b := recvInto l.bx m; { l with A := addX T g (ext T.nx g - 2 * g) b l.A, bx := fun p => b p * 0 } }

/-- `clear_ghost_cells` (3D:786-792). -/
def clearGhosts3 (T : Cart3) (g : ℕ) (A : C3 → α) : C3 → α := fun p =>
  let A1 := if p.1 < g then A p * 0 else A p
  let A2 := if ext T.nz g - g ≤ p.1 then A1 * 0 else A1
  let A3 := if p.2.1 < g then A2 * 0 else A2
  let A4 := if ext T.ny g - g ≤ p.2.1 then A3 * 0 else A3
  let A5 := if p.2.2 < g then A4 * 0 else A4
  if ext T.nx g - g ≤ p.2.2 then A5 * 0 else A5

/-- Freshly created 3D buffers (3D:664-675) and a field. -/
def gsInit3 (A : C3 → α) : GS3 α := ⟨A, fun _ => 0, fun _ => 0, fun _ => 0⟩

/-- 3D `ghost_sum` (3D:677-784). -/
def ghostSum3 (T : Cart3) (g : ℕ) (l : C3 → GS3 α) (c : C3) : GS3 α :=
  let r := syncRun (gsPhase3 T g) l 6 c
  { r with A := clearGhosts3 T g r.A }

end Sopht
