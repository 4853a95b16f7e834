import Verif.IO

/-!
# The XDMF files written by `MPIIO.save`

Models `generate_xdmf_eulerian` and `generate_xdmf_lagrangian` (`sopht_mpi/utils/mpi_io.py:556-749`) and who calls them (mpi_io.py:346-348, 429-431).  An XDMF file is
modelled by the values that its template is filled with, not by its text; `NumberType`, `Precision`, `Center`, `Active` and the layout are left out, and dimension
strings are lists of numbers.  A `DataItem` refers to the file being saved, so only the path inside that file is kept.
-/

namespace Sopht

section
variable {τ : Type}

/-- A `<DataItem Format="HDF">` inside an `<Attribute>`: name and type of the attribute, `Dimensions`, path inside the HDF5 file. -/
structure XItem where
  name : String
  atype : FType
  dims : List ℕ
  path : List String

/-- The Eulerian file (mpi_io.py:622-648). -/
structure XEul (τ : Type) where
  time : τ
  /-- `Dimensions` of the topology -/
  topo : List ℕ
  /-- `Dimensions` of the data items Origin and Spacing -/
  paramDims : ℕ
  origin : List ℚ
  spacing : List ℚ
  items : List XItem

/-- A Lagrangian file (mpi_io.py:727-746). -/
structure XLag (τ : Type) where
  time : τ
  /-- topology `Polyline`: dimensions and path of the connection; `none` = `Polyvertex` -/
  polyline : Option (List ℕ × List String)
  /-- `NumberOfElements` of a `Polyvertex` -/
  numElems : ℕ
  geometry : String
  /-- dimensions and path of the node positions -/
  grid : List ℕ × List String
  items : List XItem

/-- Content of a file. -/
inductive XFile (τ : Type) where
  | eul (x : XEul τ)
  | lag (x : XLag τ)

/-- `v if self.dim == 3 else np.insert(v, 0, z)` (mpi_io.py:574-584). -/
def padTo3 {β : Type} (dim : ℕ) (z : β) (v : List β) : List β := if dim = 3 then v else z :: v

/-- `generate_field_entry` for all fields (mpi_io.py:596-625). -/
def xdmfEulItems (dim : ℕ) (io : MPIIO) : List (String × ℕ) → Except PyErr (List XItem)
  | [] => .ok []
  | (name, _) :: rest =>
    match dget io.eulTypes name with
    | none => .error .keyError
    | some .scalar => do
      let l ← xdmfEulItems dim io rest
      .ok (⟨name, .scalar, padTo3 dim 1 io.gridSize, ["Eulerian", "Scalar", name]⟩ :: l)
    | some .vector => do
      let l ← xdmfEulItems dim io rest
      .ok (((List.range dim).map fun k =>
        (⟨compName name k, .scalar, padTo3 dim 1 io.gridSize, ["Eulerian", "Vector", compName name k]⟩ : XItem)) ++ l)

/-- `generate_xdmf_eulerian` (mpi_io.py:556-650). -/
def xdmfEul (dim : ℕ) (io : MPIIO) (time : τ) : Except PyErr (XEul τ) := do
  let items ← xdmfEulItems dim io io.eulFields
  .ok ⟨time, padTo3 dim 1 io.gridSize, dim, padTo3 dim 0 io.origin, padTo3 dim 0 io.dx, items⟩

/-- `generate_lagrangian_field_entry` for the fields of a grid (mpi_io.py:666-682, 694-715); `size` is `lagrangian_grid_size`. -/
def xdmfLagItems (io : MPIIO) (grid : String) (size : List ℕ) : List String → Except PyErr (List XItem)
  | [] => .ok []
  | name :: rest =>
    match dget io.lagTypes name with
    | none => .error .keyError
    | some .scalar => do
      let l ← xdmfLagItems io grid size rest
      .ok (⟨name, .scalar, size.take 1, ["Lagrangian", grid, "Scalar", name]⟩ :: l)
    | some .vector => do
      let l ← xdmfLagItems io grid size rest
      .ok (⟨name, .vector, size, ["Lagrangian", grid, "Vector", name]⟩ :: l)

/-- One turn of the loop of `generate_xdmf_lagrangian` (mpi_io.py:684-749). `shapeOf ref` is the shape of the array `ref` on the rank that runs it. -/
def xdmfLag (dim : ℕ) (io : MPIIO) (shapeOf : ℕ → List ℕ) (time : τ) (name : String) (ref : ℕ) : Except PyErr (XLag τ) :=
  let size := (shapeOf ref).reverse
  match dget io.lagOn name with
  | none => .error .keyError
  | some fields => do
    let items ← xdmfLagItems io name size fields
    .ok ⟨time, (dget io.lagConn name).map fun _ => (1 :: size.take 1, ["Lagrangian", name, "Connection"]), size.headD 0,
      if dim = 3 then "XYZ" else "XY", (size, ["Lagrangian", name, "Grid"]), items⟩

/-- `generate_xdmf_lagrangian` (mpi_io.py:652-749): it writes a file for *every* grid. -/
def xdmfLagAll (dim : ℕ) (io : MPIIO) (shapeOf : ℕ → List ℕ) (h5 : List Char) (time : τ) : List (String × ℕ) → Except PyErr (List (List Char × XFile τ))
  | [] => .ok []
  | (name, ref) :: rest => do
    let x ← xdmfLag dim io shapeOf time name ref
    let l ← xdmfLagAll dim io shapeOf h5 time rest
    .ok ((xdmfName h5 name, .lag x) :: l)

/-- The XDMF files rank `r` writes during `save`, in order (mpi_io.py:346-348, 360-431): rank 0 the Eulerian file, and, once for every grid of which it is the master,
the files of all grids. -/
def xdmfWrites (dim : ℕ) (io : MPIIO) (shapeOf : ℤ → ℕ → List ℕ) (h5 : List Char) (time : τ) (r : ℤ) : Except PyErr (List (List Char × XFile τ)) := do
  let e ← (if r = 0 ∧ io.eulDefined = true ∧ io.eulFields ≠ [] then do
      let x ← xdmfEul dim io time
      pure [(xdmfName h5 "eulerian", XFile.eul x)]
    else pure [] : Except PyErr (List (List Char × XFile τ)))
  let mine := io.lagGrids.filter fun q => dget io.lagMaster q.1 = some r
  let ls ← mine.mapM fun _ => xdmfLagAll dim io (shapeOf r) h5 time io.lagGrids
  .ok (e ++ ls.flatten)

end

end Sopht
