import Verif.Ghost3DTable

/-!
# 3D ghost exchange

Models `MPIGhostCommunicator3D` (`sopht_mpi/utils/mpi_utils_3d.py:86-1142`) on top of the transcribed datatypes and posting
order of `Verif.Ghost3DTable`.  A subarray type addresses elements of the rank's array by their index `(z, y, x)`, so arrays are
functions of such indices here (no flattening is involved in the code either).
-/

namespace Sopht

/-- `exchange_scalar_field_init`: faces, or faces, edges and vertices (mpi_utils_3d.py:138-141, 1116-1123). -/
def posts3 (T : Cart3) (g : ℕ) (full : Bool) (c : C3) : List (Post C3 C3) :=
  if full then facePosts3 T g c ++ edgePosts3 T g c ++ vertexPosts3 T g c else facePosts3 T g c

/-- The messages of one scalar exchange on all ranks. -/
def ghostMsgs3 (T : Cart3) (g : ℕ) (full : Bool) : List (Msg C3 C3) := allMsgs (ranks3 T) (posts3 T g full)

/-- `exchange_scalar_field_init(field); exchange_finalise()` on every rank (mpi_utils_3d.py:756-1142). -/
def exchange3 {α : Type} (T : Cart3) (g : ℕ) (full : Bool) (w : World C3 C3 α) (sched : List Ev) : World C3 C3 α :=
  runNet (ghostMsgs3 T g full) w sched

/-- `Waitall` has returned (mpi_utils_3d.py:1136-1142). -/
def Finalised3 (T : Cart3) (g : ℕ) (full : Bool) (sched : List Ev) : Prop := Complete (ghostMsgs3 T g full) sched

/-- `exchange_vector_field_init` (mpi_utils_3d.py:1125-1134): x, y, z component in turn. -/
def vecPosts3 (T : Cart3) (g : ℕ) (full : Bool) (c : C3) : List (Post C3 (Fin 3 × C3)) :=
  vecPosts [0, 1, 2] (posts3 T g full) c

/-- The messages of one vector exchange on all ranks. -/
def vecGhostMsgs3 (T : Cart3) (g : ℕ) (full : Bool) : List (Msg C3 (Fin 3 × C3)) :=
  allMsgs (ranks3 T) (vecPosts3 T g full)

/-- `exchange_vector_field_init(field); exchange_finalise()` on every rank (mpi_utils_3d.py:1125-1142). -/
def vecExchange3 {α : Type} (T : Cart3) (g : ℕ) (full : Bool) (w : World C3 (Fin 3 × C3) α) (sched : List Ev) :
    World C3 (Fin 3 × C3) α :=
  runNet (vecGhostMsgs3 T g full) w sched

end Sopht
