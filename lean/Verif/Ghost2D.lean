import Verif.Msg
import Verif.Cart

/-!
# 2D ghost exchange

Models `MPIGhostCommunicator2D` (`sopht_mpi/utils/mpi_utils_2d.py:87-420`) at the level of flat offsets into
`local_field.ravel()`.  `T.ny, T.nx` is `mpi_construct.local_grid_size`; `g` is `ghost_size`.
A local field has shape `(ny + 2g, nx + 2g)` and is contiguous (so that `ravel()` is a view).
-/

namespace Sopht

/-- `local_field.shape[0]` -/
def rows2 (T : Cart2) (g : ℕ) : ℤ := T.ny + 2 * g
/-- `local_field.shape[1]` -/
def cols2 (T : Cart2) (g : ℕ) : ℤ := T.nx + 2 * g

/-- Where the slice `a[o:]` of a 1D array with `size` elements starts (NumPy semantics, negative `o` counts from the end). -/
def pyStart (size o : ℤ) : ℤ := if o < 0 then max 0 (size + o) else min o size

/-- Type map of `Create_vector(count, blocklength, stride)` at buffer offset `o` (MPI semantics):
`count` blocks of `blocklength` consecutive elements, `stride` apart. -/
def vecIx (o : ℤ) (count blocklength : ℕ) (stride : ℤ) : List ℤ :=
  (irange count).flatMap fun r => (irange blocklength).map fun c => o + r * stride + c

/-- A buffer argument `(local_field.ravel()[o:], 1, type)` where `type` is a `Create_vector` type. -/
def bufIx (T : Cart2) (g : ℕ) (o : ℤ) (count blocklength : ℕ) : List ℤ :=
  vecIx (pyStart (rows2 T g * cols2 T g) o) count blocklength (T.nx + 2 * g)

/-- `row_type` at offset `o`: mpi_utils_2d.py:153-158. -/
def rowBuf (T : Cart2) (g : ℕ) (o : ℤ) : List ℤ := bufIx T g o g T.nx
/-- `column_type` at offset `o`: mpi_utils_2d.py:161-166. -/
def colBuf (T : Cart2) (g : ℕ) (o : ℤ) : List ℤ := bufIx T g o T.ny g
/-- `corner_type` at offset `o`: mpi_utils_2d.py:169-175. -/
def cornerBuf (T : Cart2) (g : ℕ) (o : ℤ) : List ℤ := bufIx T g o g g

/-- `exchange_scalar_field_edges_init`: mpi_utils_2d.py:191-290. -/
def edgePosts2 (T : Cart2) (g : ℕ) (c : C2) : List (Post C2 ℤ) :=
  let off : ℤ := g * cols2 T g
  [ -- Along Y: send to previous block, receive from next block (199-219)
    ⟨prevY2 T c, rowBuf T g (off + g), nextY2 T c, rowBuf T g (-off + g)⟩,
    -- Along Y: send to next block, receive from previous block (221-242)
    ⟨nextY2 T c, rowBuf T g (-2 * off + g), prevY2 T c, rowBuf T g g⟩,
    -- Along X: send to previous block, receive from next block (244-267)
    ⟨prevX2 T c, colBuf T g (off + g), nextX2 T c, colBuf T g (off + cols2 T g - g)⟩,
    -- Along X: send to next block, receive from previous block (269-290)
    ⟨nextX2 T c, colBuf T g (off + cols2 T g - 2 * g), prevX2 T c, colBuf T g off⟩ ]

/-- `exchange_scalar_field_vertices_init`: mpi_utils_2d.py:292-397. -/
def vertexPosts2 (T : Cart2) (g : ℕ) (c : C2) : List (Post C2 ℤ) :=
  let off : ℤ := g * cols2 T g
  [ -- (1) top right corner (301-324)
    ⟨diag2 T c (-1, -1), cornerBuf T g (off + g), diag2 T c (1, 1), cornerBuf T g (-(g - 1) * cols2 T g - g)⟩,
    -- (2) bottom left corner (325-349)
    ⟨diag2 T c (1, 1), cornerBuf T g (-(2 * g - 1) * cols2 T g - 2 * g), diag2 T c (-1, -1), cornerBuf T g 0⟩,
    -- (3) top left corner (350-373)
    ⟨diag2 T c (-1, 1), cornerBuf T g (off + cols2 T g - 2 * g), diag2 T c (1, -1), cornerBuf T g (-off)⟩,
    -- (4) bottom right corner (374-397)
    ⟨diag2 T c (1, -1), cornerBuf T g (-2 * off + g), diag2 T c (-1, 1), cornerBuf T g (cols2 T g - g)⟩ ]

/-- `exchange_scalar_field_init`, which is the full or the edges variant (mpi_utils_2d.py:138-141, 399-404). -/
def posts2 (T : Cart2) (g : ℕ) (full : Bool) (c : C2) : List (Post C2 ℤ) :=
  if full then edgePosts2 T g c ++ vertexPosts2 T g c else edgePosts2 T g c

/-- The messages of one scalar exchange on all ranks. -/
def ghostMsgs2 (T : Cart2) (g : ℕ) (full : Bool) : List (Msg C2 ℤ) :=
  allMsgs (ranks2 T) (posts2 T g full)

/-- `exchange_scalar_field_init(field); exchange_finalise()` (mpi_utils_2d.py:399-420) on every rank: `w c` is the raveled
array of rank `c`; `sched` is the order in which MPI progresses the messages, complete when `Waitall` returns. -/
def exchange2 {α : Type} (T : Cart2) (g : ℕ) (full : Bool) (w : World C2 ℤ α) (sched : List Ev) : World C2 ℤ α :=
  runNet (ghostMsgs2 T g full) w sched

/-- `Waitall` has returned. -/
def Finalised2 (T : Cart2) (g : ℕ) (full : Bool) (sched : List Ev) : Prop :=
  Complete (ghostMsgs2 T g full) sched

/-- Row-major position of element `(i, j)` in `ravel()`. -/
def flat2 (T : Cart2) (g : ℕ) (p : C2) : ℤ := p.1 * cols2 T g + p.2

/-- `exchange_vector_field_init` (mpi_utils_2d.py:406-412): the x component (0), then the y component (1). -/
def vecPosts2 (T : Cart2) (g : ℕ) (full : Bool) (c : C2) : List (Post C2 (Fin 2 × ℤ)) :=
  vecPosts [0, 1] (posts2 T g full) c

/-- The messages of one vector exchange on all ranks. -/
def vecGhostMsgs2 (T : Cart2) (g : ℕ) (full : Bool) : List (Msg C2 (Fin 2 × ℤ)) :=
  allMsgs (ranks2 T) (vecPosts2 T g full)

/-- `exchange_vector_field_init(field); exchange_finalise()` on every rank (mpi_utils_2d.py:406-420). -/
def vecExchange2 {α : Type} (T : Cart2) (g : ℕ) (full : Bool) (w : World C2 (Fin 2 × ℤ) α) (sched : List Ev) :
    World C2 (Fin 2 × ℤ) α :=
  runNet (vecGhostMsgs2 T g full) w sched

/-- Python numbers as far as the ghost-size checks can tell them apart. -/
inductive PyNum where
  | int (v : ℤ)
  /-- a float `num / 2^k`-style value, given by its rational value -/
  | float (num : ℤ) (den : ℕ)
  deriving DecidableEq, Repr

/-- `x <= 0` -/
def PyNum.nonpos : PyNum → Bool
  | .int v => v ≤ 0
  | .float n _ => n ≤ 0
/-- `x < 0` -/
def PyNum.neg : PyNum → Bool
  | .int v => v < 0
  | .float n _ => n < 0
/-- `isinstance(x, int)` -/
def PyNum.isInt : PyNum → Bool
  | .int _ => true
  | .float _ _ => false

/-- Ghost size check of `MPIGhostCommunicator2D.__init__` (mpi_utils_2d.py:119-124) and
`MPIGhostCommunicator3D.__init__` (mpi_utils_3d.py:118-123). -/
def ghostCommCheck (g : PyNum) : Except PyErr Unit :=
  if g.nonpos && !g.isInt then .error .valueError else .ok ()

/-- Ghost size check of `MPIFieldCommunicator2D.__init__` (mpi_utils_2d.py:435-439), `MPIFieldCommunicator3D.__init__`
(mpi_utils_3d.py:1157-1161), `MPIGhostSumCommunicator2D/3D.__init__` and the domain doubling communicators. -/
def fieldCommCheck (g : PyNum) : Except PyErr Unit :=
  if g.neg && !g.isInt then .error .valueError else .ok ()

end Sopht
