import Verif.Msg
import Verif.Cart

/-!
# Datatypes and posting order of `MPIGhostCommunicator3D`

Transcribed from `sopht_mpi/utils/mpi_utils_3d.py` by `tools/gen_ghost3d.py`, which reads the Python source as text.
`T.nz, T.ny, T.nx` is `field_size`, `fz, fy, fx` is `field_size_with_ghost`, `g` is `ghost_size`.
-/

namespace Sopht

/-- `field_size_with_ghost[0]` (mpi_utils_3d.py:161-163) -/
def fz (T : Cart3) (g : ℕ) : ℤ := T.nz + 2 * g
/-- `field_size_with_ghost[1]` (mpi_utils_3d.py:161-163) -/
def fy (T : Cart3) (g : ℕ) : ℤ := T.ny + 2 * g
/-- `field_size_with_ghost[2]` (mpi_utils_3d.py:161-163) -/
def fx (T : Cart3) (g : ℕ) : ℤ := T.nx + 2 * g

/-- Type map of `Create_subarray(sizes, subsizes, starts)` (MPI semantics): the indices of the box, row-major. -/
def subIx (subsizes : ℕ × ℕ × ℕ) (starts : C3) : List C3 :=
  (irange subsizes.1).flatMap fun a => (irange subsizes.2.1).flatMap fun b => (irange subsizes.2.2).map fun c =>
    (starts.1 + a, starts.2.1 + b, starts.2.2 + c)


/-- `send_to_0_0_px_type`: mpi_utils_3d.py:171-179 -/
def send_to_0_0_px_type (T : Cart3) (g : ℕ) : List C3 := subIx (T.nz, T.ny, g) (g, g, fx T g - 2 * g)

/-- `recv_from_0_0_nx_type`: mpi_utils_3d.py:181-185 -/
def recv_from_0_0_nx_type (T : Cart3) (g : ℕ) : List C3 := subIx (T.nz, T.ny, g) (g, g, 0)

/-- `send_to_0_0_nx_type`: mpi_utils_3d.py:188-192 -/
def send_to_0_0_nx_type (T : Cart3) (g : ℕ) : List C3 := subIx (T.nz, T.ny, g) (g, g, g)

/-- `recv_from_0_0_px_type`: mpi_utils_3d.py:194-202 -/
def recv_from_0_0_px_type (T : Cart3) (g : ℕ) : List C3 := subIx (T.nz, T.ny, g) (g, g, fx T g - g)

/-- `send_to_0_py_0_type`: mpi_utils_3d.py:206-214 -/
def send_to_0_py_0_type (T : Cart3) (g : ℕ) : List C3 := subIx (T.nz, g, T.nx) (g, fy T g - 2 * g, g)

/-- `recv_from_0_ny_0_type`: mpi_utils_3d.py:216-220 -/
def recv_from_0_ny_0_type (T : Cart3) (g : ℕ) : List C3 := subIx (T.nz, g, T.nx) (g, 0, g)

/-- `send_to_0_ny_0_type`: mpi_utils_3d.py:223-227 -/
def send_to_0_ny_0_type (T : Cart3) (g : ℕ) : List C3 := subIx (T.nz, g, T.nx) (g, g, g)

/-- `recv_from_0_py_0_type`: mpi_utils_3d.py:229-237 -/
def recv_from_0_py_0_type (T : Cart3) (g : ℕ) : List C3 := subIx (T.nz, g, T.nx) (g, fy T g - g, g)

/-- `send_to_pz_0_0_type`: mpi_utils_3d.py:241-249 -/
def send_to_pz_0_0_type (T : Cart3) (g : ℕ) : List C3 := subIx (g, T.ny, T.nx) (fz T g - 2 * g, g, g)

/-- `recv_from_nz_0_0_type`: mpi_utils_3d.py:251-255 -/
def recv_from_nz_0_0_type (T : Cart3) (g : ℕ) : List C3 := subIx (g, T.ny, T.nx) (0, g, g)

/-- `send_to_nz_0_0_type`: mpi_utils_3d.py:258-262 -/
def send_to_nz_0_0_type (T : Cart3) (g : ℕ) : List C3 := subIx (g, T.ny, T.nx) (g, g, g)

/-- `recv_from_pz_0_0_type`: mpi_utils_3d.py:264-272 -/
def recv_from_pz_0_0_type (T : Cart3) (g : ℕ) : List C3 := subIx (g, T.ny, T.nx) (fz T g - g, g, g)

/-- `send_to_0_py_px_type`: mpi_utils_3d.py:280-290 -/
def send_to_0_py_px_type (T : Cart3) (g : ℕ) : List C3 := subIx (T.nz, g, g) (g, fy T g - 2 * g, fx T g - 2 * g)

/-- `recv_from_0_ny_nx_type`: mpi_utils_3d.py:292-298 -/
def recv_from_0_ny_nx_type (T : Cart3) (g : ℕ) : List C3 := subIx (T.nz, g, g) (g, 0, 0)

/-- `send_to_0_ny_px_type`: mpi_utils_3d.py:301-311 -/
def send_to_0_ny_px_type (T : Cart3) (g : ℕ) : List C3 := subIx (T.nz, g, g) (g, g, fx T g - 2 * g)

/-- `recv_from_0_py_nx_type`: mpi_utils_3d.py:313-323 -/
def recv_from_0_py_nx_type (T : Cart3) (g : ℕ) : List C3 := subIx (T.nz, g, g) (g, fy T g - g, 0)

/-- `send_to_0_py_nx_type`: mpi_utils_3d.py:326-336 -/
def send_to_0_py_nx_type (T : Cart3) (g : ℕ) : List C3 := subIx (T.nz, g, g) (g, fy T g - 2 * g, g)

/-- `recv_from_0_ny_px_type`: mpi_utils_3d.py:338-348 -/
def recv_from_0_ny_px_type (T : Cart3) (g : ℕ) : List C3 := subIx (T.nz, g, g) (g, 0, fx T g - g)

/-- `send_to_0_ny_nx_type`: mpi_utils_3d.py:351-357 -/
def send_to_0_ny_nx_type (T : Cart3) (g : ℕ) : List C3 := subIx (T.nz, g, g) (g, g, g)

/-- `recv_from_0_py_px_type`: mpi_utils_3d.py:359-369 -/
def recv_from_0_py_px_type (T : Cart3) (g : ℕ) : List C3 := subIx (T.nz, g, g) (g, fy T g - g, fx T g - g)

/-- `send_to_pz_0_px_type`: mpi_utils_3d.py:373-383 -/
def send_to_pz_0_px_type (T : Cart3) (g : ℕ) : List C3 := subIx (g, T.ny, g) (fz T g - 2 * g, g, fx T g - 2 * g)

/-- `recv_from_nz_0_nx_type`: mpi_utils_3d.py:385-391 -/
def recv_from_nz_0_nx_type (T : Cart3) (g : ℕ) : List C3 := subIx (g, T.ny, g) (0, g, 0)

/-- `send_to_nz_0_px_type`: mpi_utils_3d.py:394-404 -/
def send_to_nz_0_px_type (T : Cart3) (g : ℕ) : List C3 := subIx (g, T.ny, g) (g, g, fx T g - 2 * g)

/-- `recv_from_pz_0_nx_type`: mpi_utils_3d.py:406-416 -/
def recv_from_pz_0_nx_type (T : Cart3) (g : ℕ) : List C3 := subIx (g, T.ny, g) (fz T g - g, g, 0)

/-- `send_to_pz_0_nx_type`: mpi_utils_3d.py:419-429 -/
def send_to_pz_0_nx_type (T : Cart3) (g : ℕ) : List C3 := subIx (g, T.ny, g) (fz T g - 2 * g, g, g)

/-- `recv_from_nz_0_px_type`: mpi_utils_3d.py:431-441 -/
def recv_from_nz_0_px_type (T : Cart3) (g : ℕ) : List C3 := subIx (g, T.ny, g) (0, g, fx T g - g)

/-- `send_to_nz_0_nx_type`: mpi_utils_3d.py:444-450 -/
def send_to_nz_0_nx_type (T : Cart3) (g : ℕ) : List C3 := subIx (g, T.ny, g) (g, g, g)

/-- `recv_from_pz_0_px_type`: mpi_utils_3d.py:452-462 -/
def recv_from_pz_0_px_type (T : Cart3) (g : ℕ) : List C3 := subIx (g, T.ny, g) (fz T g - g, g, fx T g - g)

/-- `send_to_pz_py_0_type`: mpi_utils_3d.py:466-476 -/
def send_to_pz_py_0_type (T : Cart3) (g : ℕ) : List C3 := subIx (g, g, T.nx) (fz T g - 2 * g, fy T g - 2 * g, g)

/-- `recv_from_nz_ny_0_type`: mpi_utils_3d.py:478-484 -/
def recv_from_nz_ny_0_type (T : Cart3) (g : ℕ) : List C3 := subIx (g, g, T.nx) (0, 0, g)

/-- `send_to_nz_py_0_type`: mpi_utils_3d.py:487-497 -/
def send_to_nz_py_0_type (T : Cart3) (g : ℕ) : List C3 := subIx (g, g, T.nx) (g, fy T g - 2 * g, g)

/-- `recv_from_pz_ny_0_type`: mpi_utils_3d.py:499-509 -/
def recv_from_pz_ny_0_type (T : Cart3) (g : ℕ) : List C3 := subIx (g, g, T.nx) (fz T g - g, 0, g)

/-- `send_to_pz_ny_0_type`: mpi_utils_3d.py:512-522 -/
def send_to_pz_ny_0_type (T : Cart3) (g : ℕ) : List C3 := subIx (g, g, T.nx) (fz T g - 2 * g, g, g)

/-- `recv_from_nz_py_0_type`: mpi_utils_3d.py:524-534 -/
def recv_from_nz_py_0_type (T : Cart3) (g : ℕ) : List C3 := subIx (g, g, T.nx) (0, fy T g - g, g)

/-- `send_to_nz_ny_0_type`: mpi_utils_3d.py:537-543 -/
def send_to_nz_ny_0_type (T : Cart3) (g : ℕ) : List C3 := subIx (g, g, T.nx) (g, g, g)

/-- `recv_from_pz_py_0_type`: mpi_utils_3d.py:545-555 -/
def recv_from_pz_py_0_type (T : Cart3) (g : ℕ) : List C3 := subIx (g, g, T.nx) (fz T g - g, fy T g - g, g)

/-- `send_to_pz_py_px_type`: mpi_utils_3d.py:562-572 -/
def send_to_pz_py_px_type (T : Cart3) (g : ℕ) : List C3 := subIx (g, g, g) (fz T g - 2 * g, fy T g - 2 * g, fx T g - 2 * g)

/-- `recv_from_nz_ny_nx_type`: mpi_utils_3d.py:574-580 -/
def recv_from_nz_ny_nx_type (T : Cart3) (g : ℕ) : List C3 := subIx (g, g, g) (0, 0, 0)

/-- `send_to_nz_py_px_type`: mpi_utils_3d.py:583-593 -/
def send_to_nz_py_px_type (T : Cart3) (g : ℕ) : List C3 := subIx (g, g, g) (g, fy T g - 2 * g, fx T g - 2 * g)

/-- `recv_from_pz_ny_nx_type`: mpi_utils_3d.py:595-601 -/
def recv_from_pz_ny_nx_type (T : Cart3) (g : ℕ) : List C3 := subIx (g, g, g) (fz T g - g, 0, 0)

/-- `send_to_pz_ny_px_type`: mpi_utils_3d.py:604-614 -/
def send_to_pz_ny_px_type (T : Cart3) (g : ℕ) : List C3 := subIx (g, g, g) (fz T g - 2 * g, g, fx T g - 2 * g)

/-- `recv_from_nz_py_nx_type`: mpi_utils_3d.py:616-622 -/
def recv_from_nz_py_nx_type (T : Cart3) (g : ℕ) : List C3 := subIx (g, g, g) (0, fy T g - g, 0)

/-- `send_to_pz_py_nx_type`: mpi_utils_3d.py:625-635 -/
def send_to_pz_py_nx_type (T : Cart3) (g : ℕ) : List C3 := subIx (g, g, g) (fz T g - 2 * g, fy T g - 2 * g, g)

/-- `recv_from_nz_ny_px_type`: mpi_utils_3d.py:637-643 -/
def recv_from_nz_ny_px_type (T : Cart3) (g : ℕ) : List C3 := subIx (g, g, g) (0, 0, fx T g - g)

/-- `send_to_nz_ny_px_type`: mpi_utils_3d.py:646-656 -/
def send_to_nz_ny_px_type (T : Cart3) (g : ℕ) : List C3 := subIx (g, g, g) (g, g, fx T g - 2 * g)

/-- `recv_from_pz_py_nx_type`: mpi_utils_3d.py:658-668 -/
def recv_from_pz_py_nx_type (T : Cart3) (g : ℕ) : List C3 := subIx (g, g, g) (fz T g - g, fy T g - g, 0)

/-- `send_to_nz_py_nx_type`: mpi_utils_3d.py:671-681 -/
def send_to_nz_py_nx_type (T : Cart3) (g : ℕ) : List C3 := subIx (g, g, g) (g, fy T g - 2 * g, g)

/-- `recv_from_pz_ny_px_type`: mpi_utils_3d.py:683-693 -/
def recv_from_pz_ny_px_type (T : Cart3) (g : ℕ) : List C3 := subIx (g, g, g) (fz T g - g, 0, fx T g - g)

/-- `send_to_pz_ny_nx_type`: mpi_utils_3d.py:696-706 -/
def send_to_pz_ny_nx_type (T : Cart3) (g : ℕ) : List C3 := subIx (g, g, g) (fz T g - 2 * g, g, g)

/-- `recv_from_nz_py_px_type`: mpi_utils_3d.py:708-718 -/
def recv_from_nz_py_px_type (T : Cart3) (g : ℕ) : List C3 := subIx (g, g, g) (0, fy T g - g, fx T g - g)

/-- `send_to_nz_ny_nx_type`: mpi_utils_3d.py:721-727 -/
def send_to_nz_ny_nx_type (T : Cart3) (g : ℕ) : List C3 := subIx (g, g, g) (g, g, g)

/-- `recv_from_pz_py_px_type`: mpi_utils_3d.py:729-739 -/
def recv_from_pz_py_px_type (T : Cart3) (g : ℕ) : List C3 := subIx (g, g, g) (fz T g - g, fy T g - g, fx T g - g)

/-- `exchange_scalar_field_faces_init`: mpi_utils_3d.py:756-842 -/
def facePosts3 (T : Cart3) (g : ℕ) (c : C3) : List (Post C3 C3) :=
  [
    -- mpi_utils_3d.py:766-777
    ⟨nextX3 T c, send_to_0_0_px_type T g, prevX3 T c, recv_from_0_0_nx_type T g⟩,
    -- mpi_utils_3d.py:779-790
    ⟨prevX3 T c, send_to_0_0_nx_type T g, nextX3 T c, recv_from_0_0_px_type T g⟩,
    -- mpi_utils_3d.py:792-803
    ⟨nextY3 T c, send_to_0_py_0_type T g, prevY3 T c, recv_from_0_ny_0_type T g⟩,
    -- mpi_utils_3d.py:805-816
    ⟨prevY3 T c, send_to_0_ny_0_type T g, nextY3 T c, recv_from_0_py_0_type T g⟩,
    -- mpi_utils_3d.py:818-829
    ⟨nextZ3 T c, send_to_pz_0_0_type T g, prevZ3 T c, recv_from_nz_0_0_type T g⟩,
    -- mpi_utils_3d.py:831-842
    ⟨prevZ3 T c, send_to_nz_0_0_type T g, nextZ3 T c, recv_from_pz_0_0_type T g⟩ ]

/-- `exchange_scalar_field_edges_init`: mpi_utils_3d.py:844-1003 -/
def edgePosts3 (T : Cart3) (g : ℕ) (c : C3) : List (Post C3 C3) :=
  [
    -- mpi_utils_3d.py:849-860
    ⟨diag3 T c (0, 1, 1), send_to_0_py_px_type T g, diag3 T c (0, -1, -1), recv_from_0_ny_nx_type T g⟩,
    -- mpi_utils_3d.py:862-873
    ⟨diag3 T c (0, -1, 1), send_to_0_ny_px_type T g, diag3 T c (0, 1, -1), recv_from_0_py_nx_type T g⟩,
    -- mpi_utils_3d.py:875-886
    ⟨diag3 T c (0, 1, -1), send_to_0_py_nx_type T g, diag3 T c (0, -1, 1), recv_from_0_ny_px_type T g⟩,
    -- mpi_utils_3d.py:888-899
    ⟨diag3 T c (0, -1, -1), send_to_0_ny_nx_type T g, diag3 T c (0, 1, 1), recv_from_0_py_px_type T g⟩,
    -- mpi_utils_3d.py:901-912
    ⟨diag3 T c (1, 0, 1), send_to_pz_0_px_type T g, diag3 T c (-1, 0, -1), recv_from_nz_0_nx_type T g⟩,
    -- mpi_utils_3d.py:914-925
    ⟨diag3 T c (-1, 0, 1), send_to_nz_0_px_type T g, diag3 T c (1, 0, -1), recv_from_pz_0_nx_type T g⟩,
    -- mpi_utils_3d.py:927-938
    ⟨diag3 T c (1, 0, -1), send_to_pz_0_nx_type T g, diag3 T c (-1, 0, 1), recv_from_nz_0_px_type T g⟩,
    -- mpi_utils_3d.py:940-951
    ⟨diag3 T c (-1, 0, -1), send_to_nz_0_nx_type T g, diag3 T c (1, 0, 1), recv_from_pz_0_px_type T g⟩,
    -- mpi_utils_3d.py:953-964
    ⟨diag3 T c (1, 1, 0), send_to_pz_py_0_type T g, diag3 T c (-1, -1, 0), recv_from_nz_ny_0_type T g⟩,
    -- mpi_utils_3d.py:966-977
    ⟨diag3 T c (-1, 1, 0), send_to_nz_py_0_type T g, diag3 T c (1, -1, 0), recv_from_pz_ny_0_type T g⟩,
    -- mpi_utils_3d.py:979-990
    ⟨diag3 T c (1, -1, 0), send_to_pz_ny_0_type T g, diag3 T c (-1, 1, 0), recv_from_nz_py_0_type T g⟩,
    -- mpi_utils_3d.py:992-1003
    ⟨diag3 T c (-1, -1, 0), send_to_nz_ny_0_type T g, diag3 T c (1, 1, 0), recv_from_pz_py_0_type T g⟩ ]

/-- `exchange_scalar_field_vertices_init`: mpi_utils_3d.py:1005-1114 -/
def vertexPosts3 (T : Cart3) (g : ℕ) (c : C3) : List (Post C3 C3) :=
  [
    -- mpi_utils_3d.py:1010-1023
    ⟨diag3 T c (1, 1, 1), send_to_pz_py_px_type T g, diag3 T c (-1, -1, -1), recv_from_nz_ny_nx_type T g⟩,
    -- mpi_utils_3d.py:1025-1036
    ⟨diag3 T c (-1, 1, 1), send_to_nz_py_px_type T g, diag3 T c (1, -1, -1), recv_from_pz_ny_nx_type T g⟩,
    -- mpi_utils_3d.py:1038-1049
    ⟨diag3 T c (1, -1, 1), send_to_pz_ny_px_type T g, diag3 T c (-1, 1, -1), recv_from_nz_py_nx_type T g⟩,
    -- mpi_utils_3d.py:1051-1062
    ⟨diag3 T c (1, 1, -1), send_to_pz_py_nx_type T g, diag3 T c (-1, -1, 1), recv_from_nz_ny_px_type T g⟩,
    -- mpi_utils_3d.py:1064-1075
    ⟨diag3 T c (-1, -1, 1), send_to_nz_ny_px_type T g, diag3 T c (1, 1, -1), recv_from_pz_py_nx_type T g⟩,
    -- mpi_utils_3d.py:1077-1088
    ⟨diag3 T c (-1, 1, -1), send_to_nz_py_nx_type T g, diag3 T c (1, -1, 1), recv_from_pz_ny_px_type T g⟩,
    -- mpi_utils_3d.py:1090-1101
    ⟨diag3 T c (1, -1, -1), send_to_pz_ny_nx_type T g, diag3 T c (-1, 1, 1), recv_from_nz_py_px_type T g⟩,
    -- mpi_utils_3d.py:1103-1114
    ⟨diag3 T c (-1, -1, -1), send_to_nz_ny_nx_type T g, diag3 T c (1, 1, 1), recv_from_pz_py_px_type T g⟩ ]

end Sopht
