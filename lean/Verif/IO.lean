import Verif.Spec
import Mathlib.Data.Rat.Defs
import Mathlib.Algebra.Order.Ring.Rat
import Mathlib.Logic.Function.Basic

/-!
# Checkpointing: `MPIIO` and `CosseratRodMPIIO`

Models `sopht_mpi/utils/mpi_io.py`.  A file is a value: a time stamp, the Eulerian group and the Lagrangian groups.
The class keeps *references* to the arrays of the user (Python objects), so there is a heap from references to arrays:
`save` reads the arrays as they are when it is called, `load` writes into them.

Simplifications: names contain no `/`; an array has the element type of the class (the `issubdtype` assertions hold);
floating point numbers of the parameters (`origin`, `dx`) are rationals, the time stamp has any type `τ`; the Eulerian calls are collective, all ranks making the same
calls, so one state stands for all ranks and the arrays are indexed by rank; of a Lagrangian array only the copy of the master
rank of its grid is represented (the code reads and writes nothing else).  NumPy/h5py broadcasting between unequal
shapes is an error here (h5py and NumPy accept some shapes with axes of length one).  The XDMF files
are modelled in `Verif.Xdmf`, their names here (`xdmfName`).
-/

namespace Sopht

/-! ## Python dictionaries -/

/-- `d[k]` for a dictionary, `none` = KeyError. -/
def dget {β : Type} (d : List (String × β)) (k : String) : Option β :=
  match d with
  | [] => none
  | (k', v) :: d => if k' = k then some v else dget d k

/-- `d[k] = v` for a dictionary: an existing key keeps its place, a new one goes to the end. -/
def dput {β : Type} (d : List (String × β)) (k : String) (v : β) : List (String × β) :=
  match d with
  | [] => [(k, v)]
  | (k', v') :: d => if k' = k then (k', v) :: d else (k', v') :: dput d k v

/-! ## Python slices -/

/-- The integers `a, a+1, …, b-1`. -/
def intsFrom (a b : ℤ) : List ℤ := (List.range (b - a).toNat).map fun k : ℕ => a + k

/-- Indices selected by `slice(start, stop)` on an axis of length `len` (Python semantics: negative bounds count from the
end, bounds are clipped). -/
def ioSlice (len : ℕ) (start stop : ℤ) : List ℤ :=
  let norm (x : ℤ) : ℤ := if x < 0 then max (x + len) 0 else min x len
  intsFrom (norm start) (norm stop)

/-- The inner index along one axis, `eulerian_field_inner_index` (mpi_io.py:115-120): everything when the ghost size is
zero, `slice(ghost_size, -ghost_size)` otherwise; `n` is the local size. -/
def innerSlice (n g : ℕ) : List ℤ :=
  if g = 0 then irange (n + 2 * g) else ioSlice (n + 2 * g) g (-(g : ℤ))

/-- What `define_eulerian_grid` computes (mpi_io.py:93-120): for each rank the indices of its chunk of the global dataset
(`local_eulerian_index`, row-major), the inner indices of a local array (row-major), and the expected shape of a local field. -/
structure IOGeo (R I : Type) where
  dim : ℕ
  ranks : List R
  localShape : List ℕ
  fileSel : R → List I
  innerSel : List I
  inShape : List ℕ → I → Bool

/-- `define_eulerian_grid` on a 2D construct (mpi_io.py:93-120). -/
def ioGeo2 (T : Cart2) (g : ℕ) : IOGeo C2 C2 where
  dim := 2
  ranks := ranks2 T
  localShape := [T.ny + 2 * g, T.nx + 2 * g]
  fileSel c := (intsFrom (c.1 * T.ny) ((c.1 + 1) * T.ny)).flatMap fun y =>
    (intsFrom (c.2 * T.nx) ((c.2 + 1) * T.nx)).map fun x => (y, x)
  innerSel := (innerSlice T.ny g).flatMap fun y => (innerSlice T.nx g).map fun x => (y, x)
  inShape s G := match s with
    | [a, b] => 0 ≤ G.1 && G.1 < a && 0 ≤ G.2 && G.2 < b
    | _ => false

/-- `define_eulerian_grid` on a 3D construct (mpi_io.py:93-120). -/
def ioGeo3 (T : Cart3) (g : ℕ) : IOGeo C3 C3 where
  dim := 3
  ranks := ranks3 T
  localShape := [T.nz + 2 * g, T.ny + 2 * g, T.nx + 2 * g]
  fileSel c := (intsFrom (c.1 * T.nz) ((c.1 + 1) * T.nz)).flatMap fun z =>
    (intsFrom (c.2.1 * T.ny) ((c.2.1 + 1) * T.ny)).flatMap fun y =>
      (intsFrom (c.2.2 * T.nx) ((c.2.2 + 1) * T.nx)).map fun x => (z, y, x)
  innerSel := (innerSlice T.nz g).flatMap fun z => (innerSlice T.ny g).flatMap fun y =>
    (innerSlice T.nx g).map fun x => (z, y, x)
  inShape s G := match s with
    | [a, b, d] => 0 ≤ G.1 && G.1 < a && 0 ≤ G.2.1 && G.2.1 < b && 0 ≤ G.2.2 && G.2.2 < d
    | _ => false

/-! ## Arrays, files, state -/

section
variable {R I α τ : Type}

/-- An Eulerian NumPy array on every rank: its shape and, for rank `c`, `comp k c` is component `k` (`comp 0 c` is the array
itself when it is a scalar field). -/
structure EArr (R I α : Type) where
  shape : List ℕ
  comp : ℕ → R → I → α

/-- A Lagrangian NumPy array (on its master rank), element `at ix`. -/
structure LArr (α : Type) where
  shape : List ℕ
  elt : List ℕ → α

/-- The arrays of the user. A reference is a Python object. -/
structure Heap (R I α : Type) where
  eul : ℕ → EArr R I α
  lag : ℕ → LArr α

/-- `'Scalar'` or `'Vector'`. -/
inductive FType | scalar | vector
  deriving DecidableEq, Repr

/-- An Eulerian dataset with global shape (mpi_io.py:315-319; the leading axis of length one is left out). -/
structure EDSet (I α : Type) where
  shape : List ℕ
  elt : I → α

/-- Group `Eulerian` of a file. -/
structure EGroup (I α : Type) where
  scalars : List (String × EDSet I α)
  vectors : List (String × EDSet I α)
  origin : List ℚ
  dx : List ℚ
  gridSize : List ℕ

/-- Group `Lagrangian/<grid name>` of a file. -/
structure LGroup (α : Type) where
  grid : LArr α
  connection : Option (List ℕ)
  scalars : List (String × LArr α)
  vectors : List (String × LArr α)

/-- A HDF5 file written by `MPIIO`; `τ` is the type of the time stamp. -/
structure H5 (τ I α : Type) where
  time : τ
  eul : Option (EGroup I α)
  lag : List (String × LGroup α)

/-- Attributes of `MPIIO` (mpi_io.py:36-57, 88-92, 112). -/
structure MPIIO where
  eulDefined : Bool := false
  origin : List ℚ := []
  dx : List ℚ := []
  gridSize : List ℕ := []
  eulFields : List (String × ℕ) := []
  eulTypes : List (String × FType) := []
  lagFields : List (String × ℕ) := []
  lagTypes : List (String × FType) := []
  lagGrids : List (String × ℕ) := []
  lagOn : List (String × List String) := []
  lagCount : ℕ := 0
  lagConn : List (String × List ℕ) := []
  lagMaster : List (String × ℤ) := []
  lagNum : List (String × ℕ) := []

/-- `define_eulerian_grid` (mpi_io.py:88-92); the geometry is in `IOGeo`, the check of the ghost size is `fieldCommCheck`
(same condition, mpi_io.py:81-85). -/
def defineEulerianGrid (io : MPIIO) (origin dx : List ℚ) (gridSize : List ℕ) : MPIIO :=
  { io with origin, dx, gridSize, eulDefined := true }

/-- One turn of the loop of `add_as_eulerian_fields_for_io` (mpi_io.py:137-154). The new state is returned also when the call
raises. -/
def addEulField (geo : IOGeo R I) (h : Heap R I α) (io : MPIIO) (name : String) (ref : ℕ) : MPIIO × Except PyErr Unit :=
  let io := { io with eulFields := dput io.eulFields name ref }
  if (h.eul ref).shape = geo.localShape then ({ io with eulTypes := dput io.eulTypes name .scalar }, .ok ())
  else if (h.eul ref).shape = geo.dim :: geo.localShape then ({ io with eulTypes := dput io.eulTypes name .vector }, .ok ())
  else (io, .error .valueError)

/-- `add_as_eulerian_fields_for_io` (mpi_io.py:122-154). -/
def addEulerian (geo : IOGeo R I) (h : Heap R I α) (io : MPIIO) (fields : List (String × ℕ)) : MPIIO × Except PyErr Unit :=
  if io.eulDefined = false then (io, .error .assertionError)
  else
    match fields with
    | [] => (io, .ok ())
    | (name, ref) :: rest =>
      match addEulField geo h io name ref with
      | (io, .ok ()) => addEulerian geo h io rest
      | (io, .error e) => (io, .error e)

/-- The field loop of `add_as_lagrangian_fields_for_io` (mpi_io.py:227-255), `N` = `lagrangian_grid.shape[1]`. -/
def addLagFields (h : Heap R I α) (grid : String) (gridShape : List ℕ) (N : ℕ) (io : MPIIO) :
    List (String × ℕ) → MPIIO × Except PyErr Unit
  | [] => (io, .ok ())
  | (name, ref) :: rest =>
    let io := { io with lagFields := dput io.lagFields name ref
                        lagOn := dput io.lagOn grid (((dget io.lagOn grid).getD []) ++ [name]) }
    if (h.lag ref).shape.head? = some N then
      addLagFields h grid gridShape N { io with lagTypes := dput io.lagTypes name .scalar } rest
    else if (h.lag ref).shape = gridShape then
      addLagFields h grid gridShape N { io with lagTypes := dput io.lagTypes name .vector } rest
    else (io, .error .valueError)

/-- `add_as_lagrangian_fields_for_io` (mpi_io.py:156-255). -/
def addLagrangian (dim : ℕ) (h : Heap R I α) (io : MPIIO) (master : ℤ) (gridRef : ℕ) (gridName : Option String)
    (connect : Bool) (fields : List (String × ℕ)) : MPIIO × Except PyErr Unit :=
  match (h.lag gridRef).shape with
  | [d, N] =>
    if d ≠ dim then (io, .error .assertionError)
    else
      let name := match gridName with
        | some s => s
        | none => "Lagrangian_grid_" ++ toString io.lagCount
      let count := match gridName with
        | some _ => io.lagCount
        | none => io.lagCount + 1
      let io := { io with
        lagCount := count
        lagNum := dput io.lagNum name N
        lagMaster := dput io.lagMaster name master
        lagConn := if connect then dput io.lagConn name (List.range N) else io.lagConn
        lagGrids := dput io.lagGrids name gridRef
        lagOn := dput io.lagOn name [] }
      addLagFields h name [d, N] N io fields
  | _ => (io, .error .assertionError)

/-! ## save -/

/-- Assign `vals` to the selected elements, in order. -/
def writeSel [DecidableEq I] (D : I → α) (sel : List I) (vals : List α) : I → α :=
  (sel.zip vals).foldl (fun D x => Function.update D x.1 x.2) D

/-- `create_dataset`: fails when the name exists (h5py). -/
def createDataset {β : Type} (grp : List (String × β)) (name : String) (d : β) : Except PyErr (List (String × β)) :=
  match dget grp name with
  | some _ => .error .valueError
  | none => .ok (grp ++ [(name, d)])

/-- One dataset of the Eulerian save: created with zeros, then every rank writes the inner cells of its array to its chunk
(mpi_io.py:314-323, 327-336). `order` is the order in which the ranks happen to write. -/
def writeDataset [DecidableEq I] [Zero α] (geo : IOGeo R I) (gridSize : List ℕ) (order : List R) (f : R → I → α) :
    Except PyErr (EDSet I α) :=
  if geo.ranks.all fun c => (geo.fileSel c).all (geo.inShape gridSize) then
    .ok ⟨gridSize, order.foldl (fun D c => writeSel D (geo.fileSel c) (geo.innerSel.map (f c))) (fun _ => 0)⟩
  else .error .typeError

/-- Name of the dataset of a component of a vector field, `f"{field_name}_{idx_dim}"` (mpi_io.py:329, 474). -/
def compName (name : String) (k : ℕ) : String := name ++ "_" ++ toString k

/-- The components of a vector field (mpi_io.py:324-336). -/
def saveVector [DecidableEq I] [Zero α] (geo : IOGeo R I) (gridSize : List ℕ) (order : String → List R) (name : String)
    (f : ℕ → R → I → α) (grp : EGroup I α) : List ℕ → Except PyErr (EGroup I α)
  | [] => .ok grp
  | k :: ks => do
    let d ← writeDataset geo gridSize (order (compName name k)) (f k)
    let v ← createDataset grp.vectors (compName name k) d
    saveVector geo gridSize order name f { grp with vectors := v } ks

/-- The field loop of the Eulerian save (mpi_io.py:310-340). -/
def saveEulFields [DecidableEq I] [Zero α] (geo : IOGeo R I) (order : String → List R) (h : Heap R I α) (io : MPIIO) :
    List (String × ℕ) → EGroup I α → Except PyErr (EGroup I α)
  | [], grp => .ok grp
  | (name, ref) :: rest, grp => do
    match dget io.eulTypes name with
    | none => .error .keyError
    | some .scalar =>
      let d ← writeDataset geo io.gridSize (order name) ((h.eul ref).comp 0)
      let s ← createDataset grp.scalars name d
      saveEulFields geo order h io rest { grp with scalars := s }
    | some .vector =>
      let grp ← saveVector geo io.gridSize order name (h.eul ref).comp grp (List.range geo.dim)
      saveEulFields geo order h io rest grp

/-- `dset[...] = data`, the dataset having the shape `shape`. -/
def writeAll (shape : List ℕ) (a : LArr α) : Except PyErr (LArr α) :=
  if a.shape = shape then .ok a else .error .typeError

/-- `np.transpose` / `np.moveaxis(·, 0, -1)` / `np.moveaxis(·, -1, 0)` on arrays with at most two axes. -/
def LArr.transpose (a : LArr α) : LArr α := ⟨a.shape.reverse, fun ix => a.elt ix.reverse⟩

/-- The field loop of the Lagrangian save (mpi_io.py:396-427). -/
def saveLagFields (dim N : ℕ) (h : Heap R I α) (io : MPIIO) : List String → LGroup α → Except PyErr (LGroup α)
  | [], grp => .ok grp
  | name :: rest, grp => do
    match dget io.lagFields name, dget io.lagTypes name with
    | some ref, some .scalar =>
      let d ← writeAll [N] (h.lag ref)
      let s ← createDataset grp.scalars name d
      saveLagFields dim N h io rest { grp with scalars := s }
    | some ref, some .vector =>
      let d ← writeAll [N, dim] (h.lag ref).transpose
      let v ← createDataset grp.vectors name d
      saveLagFields dim N h io rest { grp with vectors := v }
    | _, _ => .error .keyError

/-- The connection of a grid, if any (mpi_io.py:379-391). -/
def writeConn (N : ℕ) : Option (List ℕ) → Except PyErr (Option (List ℕ))
  | none => .ok none
  | some l => if l.length = N then .ok (some l) else .error .typeError

/-- The grid loop of the Lagrangian save (mpi_io.py:360-431). -/
def saveLagGrids (dim : ℕ) (h : Heap R I α) (io : MPIIO) :
    List (String × ℕ) → List (String × LGroup α) → Except PyErr (List (String × LGroup α))
  | [], out => .ok out
  | (name, ref) :: rest, out => do
    match dget io.lagNum name, dget io.lagOn name with
    | some N, some fields =>
      let grid ← writeAll [N, dim] (h.lag ref).transpose
      let conn ← writeConn N (dget io.lagConn name)
      let grp ← saveLagFields dim N h io fields ⟨grid, conn, [], []⟩
      let out ← createDataset out name grp
      saveLagGrids dim h io rest out
    | _, _ => .error .keyError

/-- `MPIIO.save` (mpi_io.py:257-431). -/
def save [DecidableEq I] [Zero α] (geo : IOGeo R I) (order : String → List R) (h : Heap R I α) (io : MPIIO) (time : τ) :
    Except PyErr (H5 τ I α) := do
  let eul ← (if io.eulDefined = true ∧ io.eulFields ≠ [] then do
      let grp ← saveEulFields geo order h io io.eulFields ⟨[], [], io.origin, io.dx, io.gridSize⟩
      pure (some grp)
    else pure none : Except PyErr (Option (EGroup I α)))
  let lag ← saveLagGrids geo.dim h io io.lagGrids []
  pure ⟨time, eul, lag⟩

/-! ## load -/

/-- `np.testing.assert_allclose(actual, desired)` with its default tolerances (`rtol=1e-7`, `atol=0`). -/
def allclose (actual desired : List ℚ) : Bool :=
  actual.length = desired.length ∧
    (actual.zip desired).all fun x => |x.1 - x.2| ≤ 1 / 10000000 * |x.2|

/-- Every rank reads its chunk of a dataset into the inner cells of component `k` of the array (mpi_io.py:460-464, 473-477). -/
def readDataset [DecidableEq I] (geo : IOGeo R I) (d : EDSet I α) (k : ℕ) (a : EArr R I α) : Except PyErr (EArr R I α) :=
  if geo.ranks.all fun c => (geo.fileSel c).all (geo.inShape d.shape) then
    .ok { a with comp := Function.update a.comp k fun c =>
            writeSel (a.comp k c) geo.innerSel ((geo.fileSel c).map d.elt) }
  else .error .valueError

/-- The components of a vector field (mpi_io.py:465-477). Arrays already written stay written when a later component fails. -/
def loadVector [DecidableEq I] (geo : IOGeo R I) (grp : EGroup I α) (name : String) (a : EArr R I α) :
    List ℕ → EArr R I α × Except PyErr Unit
  | [] => (a, .ok ())
  | k :: ks =>
    match dget grp.vectors (compName name k) with
    | none => (a, .error .assertionError)
    | some d =>
      match readDataset geo d k a with
      | .error e => (a, .error e)
      | .ok a => loadVector geo grp name a ks

/-- The field loop of the Eulerian load (mpi_io.py:454-481). -/
def loadEulFields [DecidableEq I] (geo : IOGeo R I) (file : Option (EGroup I α)) (io : MPIIO) :
    List (String × ℕ) → Heap R I α → Heap R I α × Except PyErr Unit
  | [], h => (h, .ok ())
  | (name, ref) :: rest, h =>
    match dget io.eulTypes name with
    | none => (h, .error .keyError)
    | some .scalar =>
      match file.bind fun grp => dget grp.scalars name with
      | none => (h, .error .assertionError)
      | some d =>
        match readDataset geo d 0 (h.eul ref) with
        | .error e => (h, .error e)
        | .ok a => loadEulFields geo file io rest { h with eul := Function.update h.eul ref a }
    | some .vector =>
      match file with
      | none => (h, .error .assertionError)
      | some grp =>
        match loadVector geo grp name (h.eul ref) (List.range geo.dim) with
        | (a, .error e) => ({ h with eul := Function.update h.eul ref a }, .error e)
        | (a, .ok ()) => loadEulFields geo file io rest { h with eul := Function.update h.eul ref a }

/-- `arr[...] = data`. -/
def assignAll (a d : LArr α) : Except PyErr (LArr α) :=
  if a.shape = d.shape then .ok d else .error .valueError

/-- The field loop of the Lagrangian load (mpi_io.py:518-552). -/
def loadLagFields (grp : LGroup α) (io : MPIIO) : List String → Heap R I α → Heap R I α × Except PyErr Unit
  | [], h => (h, .ok ())
  | name :: rest, h =>
    match dget io.lagFields name, dget io.lagTypes name with
    | some ref, some .scalar =>
      match dget grp.scalars name with
      | none => (h, .error .assertionError)
      | some d =>
        match assignAll (h.lag ref) d with
        | .error e => (h, .error e)
        | .ok a => loadLagFields grp io rest { h with lag := Function.update h.lag ref a }
    | some ref, some .vector =>
      match dget grp.vectors name with
      | none => (h, .error .assertionError)
      | some d =>
        match assignAll (h.lag ref) d.transpose with
        | .error e => (h, .error e)
        | .ok a => loadLagFields grp io rest { h with lag := Function.update h.lag ref a }
    | _, _ => (h, .error .keyError)

/-- The grid loop of the Lagrangian load (mpi_io.py:499-552); the connection read back (mpi_io.py:512-515) is not kept, it is never used
by `load` itself. -/
def loadLagGrids (file : List (String × LGroup α)) (io : MPIIO) :
    List (String × ℕ) → Heap R I α → Heap R I α × Except PyErr Unit
  | [], h => (h, .ok ())
  | (name, ref) :: rest, h =>
    match dget file name, dget io.lagOn name with
    | some grp, some fields =>
      match assignAll (h.lag ref) grp.grid.transpose with
      | .error e => (h, .error e)
      | .ok a =>
        match loadLagFields grp io fields { h with lag := Function.update h.lag ref a } with
        | (h, .error e) => (h, .error e)
        | (h, .ok ()) => loadLagGrids file io rest h
    | none, _ => (h, .error .assertionError)
    | _, none => (h, .error .keyError)

/-- `MPIIO.load` (mpi_io.py:433-554): the new heap, and the time or the exception. -/
def load [DecidableEq I] (geo : IOGeo R I) (file : H5 τ I α) (io : MPIIO) (h : Heap R I α) : Heap R I α × Except PyErr τ :=
  let (h, r) : Heap R I α × Except PyErr Unit :=
    if io.eulFields = [] then (h, .ok ())
    else if io.eulDefined = false then (h, .error .assertionError)
    else
      match loadEulFields geo file.eul io io.eulFields h with
      | (h, .error e) => (h, .error e)
      | (h, .ok ()) =>
        match file.eul with
        | none => (h, .error .keyError)
        | some grp =>
          if allclose io.origin grp.origin ∧ allclose io.dx grp.dx ∧
              allclose (io.gridSize.map fun n : ℕ => (n : ℚ)) (grp.gridSize.map fun n : ℕ => (n : ℚ)) then (h, .ok ())
          else (h, .error .assertionError)
  match r with
  | .error e => (h, .error e)
  | .ok () =>
    if io.lagFields = [] then (h, .ok file.time)
    else
      match loadLagGrids file.lag io io.lagGrids h with
      | (h, .error e) => (h, .error e)
      | (h, .ok ()) => (h, .ok file.time)

/-! ## CosseratRodMPIIO -/

/-- `_update_rod_element_position` (mpi_io.py:788-792): mean of neighbouring node positions, first `dim` rows. -/
def rodElementPosition {K : Type} [Field K] (dim nElems : ℕ) (nodes : ℕ → ℕ → K) : LArr K :=
  ⟨[dim, nElems], fun ix => match ix with
    | [i, e] => 1 / 2 * (nodes i (e + 1) + nodes i e)
    | _ => 0⟩

/-- `CosseratRodMPIIO.save` (mpi_io.py:784-786): element positions are refreshed, then saved. `ref` is the reference of
`rod_element_position`, `nodes` the `position_collection` of the rod. -/
def rodSave {K : Type} [Field K] [DecidableEq I] (geo : IOGeo R I) (order : String → List R) (h : Heap R I K) (io : MPIIO)
    (ref nElems : ℕ) (nodes : ℕ → ℕ → K) (time : τ) : Heap R I K × Except PyErr (H5 τ I K) :=
  let h := { h with lag := Function.update h.lag ref (rodElementPosition geo.dim nElems nodes) }
  (h, save geo order h io time)

end

/-! ## Names of the XDMF files -/

/-- Python `s.replace(old, new)` for a non-empty `old`, on lists of characters. -/
def pyReplace (old new : List Char) : List Char → List Char
  | [] => []
  | c :: s =>
    if old.isPrefixOf (c :: s) ∧ old ≠ [] then new ++ pyReplace old new ((c :: s).drop old.length)
    else c :: pyReplace old new s
  termination_by s => s.length
  decreasing_by
    · simp only [List.length_drop, List.length_cons]
      rename_i h
      have : 0 < old.length := List.length_pos_iff.2 h.2
      omega
    · simp

/-- `h5_file_name.replace(".h5", "_eulerian.xmf")` (mpi_io.py:649) and `h5_file_name.replace(".h5", f"_{name}.xmf")` (mpi_io.py:685). -/
def xdmfName (h5 : List Char) (tail : String) : List Char := pyReplace ".h5".toList (("_" ++ tail ++ ".xmf").toList) h5

end Sopht
