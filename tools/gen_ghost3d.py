"""Reads /repo/sopht_mpi/utils/mpi_utils_3d.py as text and writes lean/Verif/Ghost3DTable.lean: a transcription of the
datatypes and of the posting order of MPIGhostCommunicator3D."""
import re, ast, sys
src = open("/repo/sopht_mpi/utils/mpi_utils_3d.py").read()
tree = ast.parse(src)
cls = [n for n in tree.body if isinstance(n, ast.ClassDef) and n.name == "MPIGhostCommunicator3D"][0]
meth = {m.name: m for m in cls.body if isinstance(m, ast.FunctionDef)}

def expr(e):
    s = ast.unparse(e)
    for k, (a, b) in enumerate([("fz", "nz"), ("fy", "ny"), ("fx", "nx")]):
        s = s.replace(f"self.field_size_with_ghost[{k}]", f"{a} T g").replace(f"self.field_size[{k}]", f"T.{b}")
    return s.replace("self.ghost_size", "g")

out = []
out.append("""import Verif.Msg
import Verif.Cart

/-!
# Datatypes and posting order of `MPIGhostCommunicator3D`

Transcribed from `sopht_mpi/utils/mpi_utils_3d.py` by `tools/gen_ghost3d.py`, which reads the Python source as text.
`T.nz, T.ny, T.nx` is `field_size`, `fz, fy, fx` is `field_size_with_ghost`, `g` is `ghost_size`.
-/

namespace Sopht

/-- `field_size_with_ghost[0]` (mpi_utils_3d.py:161-163) -/
def fz (T : Cart3) (g : ℕ) : ℤ := T.nz + 2 * g
/-- `field_size_with_ghost[1]` (mpi_utils_3d.py:161-163) -/
def fy (T : Cart3) (g : ℕ) : ℤ := T.ny + 2 * g
/-- `field_size_with_ghost[2]` (mpi_utils_3d.py:161-163) -/
def fx (T : Cart3) (g : ℕ) : ℤ := T.nx + 2 * g

/-- Type map of `Create_subarray(sizes, subsizes, starts)` (MPI semantics): the indices of the box, row-major. -/
def subIx (subsizes : ℕ × ℕ × ℕ) (starts : C3) : List C3 :=
  (irange subsizes.1).flatMap fun a => (irange subsizes.2.1).flatMap fun b => (irange subsizes.2.2).map fun c =>
    (starts.1 + a, starts.2.1 + b, starts.2.2 + c)
""")
for node in ast.walk(meth["init_datatypes"]):
    if isinstance(node, ast.Assign) and isinstance(node.value, ast.Call) and "Create_subarray" in ast.unparse(node.value.func):
        name = node.targets[0].attr
        kw = {k.arg: k.value for k in node.value.keywords}
        assert ast.unparse(kw["sizes"]) == "self.field_size_with_ghost"
        sub = ", ".join(expr(e) for e in kw["subsizes"].elts)
        st = ", ".join(expr(e) for e in kw["starts"].elts)
        out.append(f"/-- `{name}`: mpi_utils_3d.py:{node.lineno}-{node.end_lineno} -/\n"
                   f"def {name} (T : Cart3) (g : ℕ) : List C3 := subIx ({sub}) ({st})")

AX = {"x_axis": "X3", "y_axis": "Y3", "z_axis": "Z3"}
def rank(e):
    s = ast.unparse(e)
    m = re.match(r"self\.mpi_construct\.(next|previous)_grid_along\[(\w)_axis\]", s)
    if m:
        return f"{'next' if m.group(1)=='next' else 'prev'}{m.group(2).upper()}3 T c"
    m = re.match(r"self\._get_diagonally_shifted_coord_rank\(coord_shift=\[(.*)\]\)", s)
    return f"diag3 T c ({m.group(1)})"

def posts(mname, lname):
    m = meth[mname]
    axes = {}
    calls = []
    for st in m.body:
        if isinstance(st, ast.Assign):
            axes[st.targets[0].id] = st.value.value
        if isinstance(st, ast.Expr) and isinstance(st.value, ast.Call) and "append" in ast.unparse(st.value.func):
            c = st.value.args[0]
            kind = c.func.attr
            typ = c.args[0].elts[1].attr
            kw = {k.arg: k.value for k in c.keywords}
            calls.append((kind, typ, rank(kw["dest" if kind == "Isend" else "source"]), st.lineno, st.end_lineno))
    if axes:
        assert axes == {"z_axis": 0, "y_axis": 1, "x_axis": 2}, axes
    rows = []
    for a, b in zip(calls[::2], calls[1::2]):
        assert a[0] == "Isend" and b[0] == "Irecv"
        rows.append(f"    -- mpi_utils_3d.py:{a[3]}-{b[4]}\n    ⟨{a[2]}, {a[1]} T g, {b[2]}, {b[1]} T g⟩")
    out.append(f"/-- `{mname}`: mpi_utils_3d.py:{m.lineno}-{m.end_lineno} -/\n"
               f"def {lname} (T : Cart3) (g : ℕ) (c : C3) : List (Post C3 C3) :=\n  [\n" + ",\n".join(rows) + " ]")
posts("exchange_scalar_field_faces_init", "facePosts3")
posts("exchange_scalar_field_edges_init", "edgePosts3")
posts("exchange_scalar_field_vertices_init", "vertexPosts3")
out.append("end Sopht")
open("/verif/lean/Verif/Ghost3DTable.lean", "w").write("\n\n".join(out) + "\n")
