import Verif.AsyncColl
import Verif.Sim3DRun

/-!
# The 3D flow simulator run by ranks at their own speed

The rank program of a driver loop with `UnboundedFlowSimulator3D` (`sopht_mpi/simulator/flow/flow_simulators_mpi_3d.py`, "F3D.py"), as in `Verif.AsyncSim2D`: one rank
executes its own sequence of local computations, `Isend`, `Irecv`, `Waitall` and collective operations; nothing else synchronises the ranks.
-/

namespace Sopht

/-- What one rank holds. The arrays of a ghost exchange or domain doubling copy are those the exchange works on (`wU`, `wA`, `wF`, `wD`): copied before the exchange and back
after it, where the code hands over the array itself. A rank of the code holds its pencil of the three Fourier arrays; here it holds all of them. -/
structure Rk3 (T : Cart3) where
  sc : C3 → ℝ
  om : Fin 3 → C3 → ℝ
  vel : Fin 3 → C3 → ℝ
  buf : C3 → ℝ
  bufV : Fin 3 → C3 → ℝ
  stream : Fin 3 → C3 → ℝ
  forcing : Fin 3 → C3 → ℝ
  time : ℝ
  dbl : C3 → ℝ
  four : Dbl3 T → ℂ
  conv : Dbl3 T → ℂ
  green : Dbl3 T → ℂ
  /-- the local variable `dt` of the driver -/
  dt : ℝ
  wU : Unit × C3 → ℝ
  wA : Option (Fin 3) × C3 → ℝ
  wF : Fin 3 × C3 → ℝ
  wD : C3 ⊕ C3 → ℝ
  /-- packets of collective operations -/
  mb : C3 → List ℝ

variable {T : Cart3}

/-- The array of a one-component exchange. -/
def partU3 : Part (Rk3 T) (Unit × C3 → ℝ) := ⟨fun s => s.wU, fun s a => { s with wU := a }, fun _ _ => rfl, fun _ => rfl, fun _ _ _ => rfl⟩
/-- The arrays of the exchange of field and velocity. -/
def partA3 : Part (Rk3 T) (Option (Fin 3) × C3 → ℝ) := ⟨fun s => s.wA, fun s a => { s with wA := a }, fun _ _ => rfl, fun _ => rfl, fun _ _ _ => rfl⟩
/-- The arrays of the exchange of a vector field. -/
def partF3 : Part (Rk3 T) (Fin 3 × C3 → ℝ) := ⟨fun s => s.wF, fun s a => { s with wF := a }, fun _ _ => rfl, fun _ => rfl, fun _ _ _ => rfl⟩
/-- The arrays of a domain doubling copy. -/
def partD3 : Part (Rk3 T) (C3 ⊕ C3 → ℝ) := ⟨fun s => s.wD, fun s a => { s with wD := a }, fun _ _ => rfl, fun _ => rfl, fun _ _ _ => rfl⟩
/-- The packets. -/
def partM3 : Part (Rk3 T) (C3 → List ℝ) := ⟨fun s => s.mb, fun s a => { s with mb := a }, fun _ _ => rfl, fun _ => rfl, fun _ _ _ => rfl⟩

/-- A piece of rank program. -/
abbrev Piece3 (T : Cart3) := C3 → List (AIns C3 (Rk3 T) (List ℝ))

/-- Interior pass of a kernel. -/
def midPass3 {ι β : Type} (T : Cart3) (g k : ℕ) (isCurl : Bool) (op : β → β → β) (f : (ι → C3 → ℝ) → β) (A : ι × C3 → ℝ) (out : C3 → β) : C3 → β :=
  pass3 k op f (fun i p => A (i, p)) out (interiorView3 T g isCurl)

/-- Boundary passes of a kernel. -/
def endPass3 {ι β : Type} (T : Cart3) (g k : ℕ) (op : β → β → β) (f : (ι → C3 → ℝ) → β) (A : ι × C3 → ℝ) (out : C3 → β) : C3 → β :=
  (boundaryViews3 T g k).foldl (pass3 k op f fun i p => A (i, p)) out

/-- The transported field: `none` is `primary_scalar_field`, `some j` a component of `primary_vector_field`. -/
def Rk3.fld (s : Rk3 T) : Option (Fin 3) → C3 → ℝ
  | none => s.sc
  | some j => s.om j
/-- Write it. -/
def Rk3.setFld (s : Rk3 T) (k : Option (Fin 3)) (a : C3 → ℝ) : Rk3 T := match k with
  | none => { s with sc := a }
  | some j => { s with om := Function.update s.om j a }

/-- Diffusion time step of one field (diffusion_timestep_mpi_3d.py:42-62, diffusion_flux_mpi_3d.py:35-191). -/
noncomputable def diffPiece3 (C : Cfg3) (K : Kern3) (k : Option (Fin 3)) : List (Piece3 T) :=
  [exchLayer (ranks3 T) partU3 (fun _ s => { s with wU := fun i => s.fld k i.2 }) (vecPosts [()] (posts3 T C.g C.full))
    (fun _ s => { s with buf := midPass3 T C.g 1 false (fun _ b => b) (K.diff (C.nu * s.dt / simDx3 T C.xr / simDx3 T C.xr)) s.wU s.buf }),
   locLayer (ranks3 T) fun c s =>
    let flux := zeroSides3 T C.g 0 c (endPass3 T C.g 1 (fun _ b => b) (K.diff (C.nu * s.dt / simDx3 T C.xr / simDx3 T C.xr)) s.wU s.buf)
    Rk3.setFld { s with buf := flux } k fun p => s.wU ((), p) + flux p]

/-- Field and velocity components. -/
def advArrays3 (fld : C3 → ℝ) (vel : Fin 3 → C3 → ℝ) (i : Option (Fin 3) × C3) : ℝ := match i.1 with
  | none => fld i.2
  | some j => vel j i.2

/-- Advection time step of one field (advection_timestep_mpi_3d.py:40-62, advection_flux_mpi_3d.py:25-195). -/
noncomputable def advPiece3 (C : Cfg3) (K : Kern3) (k : Option (Fin 3)) : List (Piece3 T) :=
  [exchLayer (ranks3 T) partA3
    (fun _ s => { s with
      buf := fun _ => 0
      wA := advArrays3 (s.fld k) s.vel })
    (vecPosts [none, some 0, some 1, some 2] (posts3 T C.g C.full))
    (fun _ s => { s with buf := midPass3 T C.g 2 false (fun a b => a + b) (K.adv (-(s.dt / simDx3 T C.xr))) s.wA s.buf }),
   locLayer (ranks3 T) fun _ s =>
    let flux := endPass3 T C.g 2 (fun a b => a + b) (K.adv (-(s.dt / simDx3 T C.xr))) s.wA s.buf
    Rk3.setFld { s with
      buf := flux
      vel := fun j p => s.wA (some j, p) } k fun p => s.wA (none, p) + flux p]

/-- The three components of a vector kernel in turn (diffusion_timestep_mpi_3d.py:66-90, advection_timestep_mpi_3d.py:66-93). -/
def allComps3 (f : Option (Fin 3) → List (Piece3 T)) : List (Piece3 T) := f (some 0) ++ (f (some 1) ++ f (some 2))

/-- The forcing handed to the vorticity update: the forcing field, or u × ω in the vector buffer. -/
def Rk3.src (s : Rk3 T) : Bool → Fin 3 → C3 → ℝ
  | true => s.forcing
  | false => s.bufV
/-- Write it. -/
def Rk3.setSrc (s : Rk3 T) (forced : Bool) (a : Fin 3 → C3 → ℝ) : Rk3 T := match forced with
  | true => { s with forcing := a }
  | false => { s with bufV := a }

/-- The three components as one array of triples. -/
def tri3 (v : Fin 3 → C3 → ℝ) (p : C3) : ℝ × ℝ × ℝ := (v 0 p, v 1 p, v 2 p)
/-- … and back. -/
def untri3 (u : C3 → ℝ × ℝ × ℝ) : Fin 3 → C3 → ℝ := ![fun p => (u p).1, fun p => (u p).2.1, fun p => (u p).2.2]

/-- `update_vorticity_from_velocity_forcing` (update_vorticity_from_velocity_forcing_mpi_3d.py:27-176) as called in F3D.py:402-406 and 416-420. -/
noncomputable def updPiece3 (C : Cfg3) (K : Kern3) (forced : Bool) : List (Piece3 T) :=
  [exchLayer (ranks3 T) partF3 (fun _ s => { s with wF := fun i => s.src forced i.1 i.2 }) (vecPosts [0, 1, 2] (posts3 T C.g C.full))
    (fun _ s => { s with om := untri3 (midPass3 T C.g 1 false (fun a b => a + b) (K.upd (s.dt / (2 * simDx3 T C.xr))) s.wF (tri3 s.om)) }),
   locLayer (ranks3 T) fun _ s =>
    Rk3.setSrc { s with om := untri3 (endPass3 T C.g 1 (fun a b => a + b) (K.upd (s.dt / (2 * simDx3 T C.xr))) s.wF (tri3 s.om)) } forced fun j p => s.wF (j, p)]

/-- `elementwise_cross_product` into the vector buffer (F3D.py:396-401). -/
def crossPiece3 : List (Piece3 T) :=
  [locLayer (ranks3 T) fun _ s => { s with
    bufV := ![fun p => s.vel 1 p * s.om 2 p - s.vel 2 p * s.om 1 p, fun p => s.vel 2 p * s.om 0 p - s.vel 0 p * s.om 2 p,
      fun p => s.vel 0 p * s.om 1 p - s.vel 1 p * s.om 0 p] }]

/-- One pass of the filter along axis `a` (laplacian_filter_mpi_3d.py:145-265, 284-291): `buffer_vector_field[1]` is the field buffer, `buffer_vector_field[0]` the flux buffer. -/
noncomputable def filterPassPiece3 (C : Cfg3) (a : Fin 3) : List (Piece3 T) :=
  [exchLayer (ranks3 T) partU3 (fun _ s => { s with wU := fun i => s.bufV 1 i.2 }) (vecPosts [()] (posts3 T C.g C.full))
    (fun _ s => { s with bufV := Function.update s.bufV 0 (midPass3 T C.g 1 false (fun _ b => b) (lapFilter a) s.wU (s.bufV 0)) }),
   locLayer (ranks3 T) fun c s =>
    let flux := clearSides3 T C.g 1 c (endPass3 T C.g 1 (fun _ b => b) (lapFilter a) s.wU (s.bufV 0))
    { s with bufV := Function.update (Function.update s.bufV 0 flux) 1 flux }]

/-- Clear the rim of the flux buffer (laplacian_filter_mpi_3d.py:274-279, 328-332). -/
noncomputable def filterClearPiece3 (C : Cfg3) : List (Piece3 T) := [locLayer (ranks3 T) fun c s => { s with bufV := Function.update s.bufV 0 (clearSides3 T C.g 1 c (s.bufV 0)) }]
/-- Copy component `j` to the field buffer. -/
def filterCopyPiece3 (j : Fin 3) : List (Piece3 T) := [locLayer (ranks3 T) fun _ s => { s with bufV := Function.update s.bufV 1 (s.om j) }]
/-- Subtract the flux from component `j`. -/
noncomputable def filterSubPiece3 (j : Fin 3) : List (Piece3 T) := [locLayer (ranks3 T) fun _ s => { s with om := Function.update s.om j fun p => 1 * s.om j p + (-1) * s.bufV 0 p }]

/-- One component of the filter (laplacian_filter_mpi_3d.py:267-385). -/
noncomputable def filterCompPiece3 (C : Cfg3) (order : ℕ) (ty : String) (j : Fin 3) : List (Piece3 T) :=
  if ty = "multiplicative" then
    filterClearPiece3 C ++ (filterCopyPiece3 j ++ ((List.range order).flatMap (fun _ => filterPassPiece3 C 0 ++ (filterPassPiece3 C 1 ++ filterPassPiece3 C 2)) ++ filterSubPiece3 j))
  else
    filterClearPiece3 C ++ (([0, 1, 2] : List (Fin 3)).flatMap fun a => filterCopyPiece3 j ++ ((List.range order).flatMap (fun _ => filterPassPiece3 C a) ++ filterSubPiece3 j))

/-- `filter_vector_field` (F3D.py:282-297, 412). -/
noncomputable def filterPiece3 (C : Cfg3) : List (Piece3 T) := match C.flt with
  | none => []
  | some (order, ty) => filterCompPiece3 C order ty 0 ++ (filterCompPiece3 C order ty 1 ++ filterCompPiece3 C order ty 2)

/-- `penalise_field_towards_boundary` (F3D.py:383). -/
noncomputable def penPiece3 (C : Cfg3) : List (Piece3 T) :=
  [locLayer (ranks3 T) fun c s =>
    { s with om := okOr s.om (penaliseVec3 T C.g C.w (simDx3 T C.xr) (position3 T C.g C.xr c 0) (position3 T C.g C.xr c 1) (position3 T C.g C.xr c 2) c s.om) }]

/-- A block of the doubled array as a packet. -/
def encBlk3 (T : Cart3) (D : C3 → ℝ) : List ℝ := (subIx (2 * T.nz, 2 * T.ny, 2 * T.nx) (0, 0, 0)).map D
/-- … and back. -/
def decBlk3 (T : Cart3) (l : List ℝ) (q : C3) : ℝ := l.getD (((q.1 * (2 * T.ny) + q.2.1) * (2 * T.nx) + q.2.2).toNat) 0

/-- `unbounded_poisson_solver.solve` of component `j` (P3D.py:133-167, 169-187, F3D.py:384-387). -/
noncomputable def solvePiece3 [NeZero T.gz] [NeZero T.gy] [NeZero T.gx] (C : Cfg3) (j : Fin 3) : List (Piece3 T) :=
  [exchLayer (ranks3 T) partD3 (fun _ s => { s with wD := Sum.elim (s.om j) fun _ => 0 }) (fun c => okPosts (toPosts3 T C.g (distDims3 T) c)) (fun _ s => s),
   collLayer (ranks3 T) partM3 (fun _ s => { s with dbl := fun q => s.wD (.inr q) }) (fun _ _ => true) (fun _ _ s => encBlk3 T s.dbl),
   locLayer (ranks3 T) fun c s =>
    let four := dft (kern3 T) fun x => ((asm3 T (fun r => decBlk3 T (s.mb r)) x : ℝ) : ℂ)
    let conv := fun k => four k * s.green k
    { s with four, conv, dbl := disasm3 T (fun x => (idft (kern3 T) conv x).re) c },
   exchLayer (ranks3 T) partD3 (fun _ s => { s with wD := Sum.elim (s.stream j) s.dbl }) (fun c => okPosts (fromPosts3 T C.g (distDims3 T) c)) (fun _ s => s),
   locLayer (ranks3 T) fun _ s => { s with stream := Function.update s.stream j fun p => s.wD (.inl p) }]

/-- `curl` (curl_mpi_3d.py:29-194) as called in F3D.py:388-392. -/
noncomputable def curlPiece3 (C : Cfg3) (K : Kern3) : List (Piece3 T) :=
  [exchLayer (ranks3 T) partF3 (fun _ s => { s with wF := fun i => s.stream i.1 i.2 }) (vecPosts [0, 1, 2] (posts3 T C.g C.full))
    (fun _ s => { s with vel := untri3 (midPass3 T C.g 1 true (fun _ b => b) (K.curl (0.5 / simDx3 T C.xr)) s.wF (tri3 s.vel)) }),
   locLayer (ranks3 T) fun c s =>
    { s with
      vel := untri3 (zeroSides3 T C.g ((0, 0, 0) : ℝ × ℝ × ℝ) c (endPass3 T C.g 1 (fun _ b => b) (K.curl (0.5 / simDx3 T C.xr)) s.wF (tri3 s.vel)))
      stream := fun j p => s.wF (j, p) }]

/-- `update_velocity_with_free_stream` (F3D.py:304-325). -/
noncomputable def freePiece3 (C : Cfg3) (fs : Fin 3 → ℝ) : List (Piece3 T) :=
  [locLayer (ranks3 T) fun _ s => if C.freeStream then { s with vel := fun j p => s.vel j p + fs j } else s]

/-- `rotational_form_navier_stokes_timestep` (F3D.py:382-413). -/
noncomputable def nsPiece3 [NeZero T.gz] [NeZero T.gy] [NeZero T.gx] (C : Cfg3) (K : Kern3) (fs : Fin 3 → ℝ) : List (Piece3 T) :=
  crossPiece3 ++ (updPiece3 C K false ++ (allComps3 (diffPiece3 C K) ++ (filterPiece3 C ++ (penPiece3 C ++ ((solvePiece3 C 0 ++ (solvePiece3 C 1 ++ solvePiece3 C 2)) ++
    (curlPiece3 C K ++ freePiece3 C fs))))))

/-- `self.flow_time_step` (F3D.py:336-345) with the keyword argument `free_stream_velocity`. -/
noncomputable def flowPiece3 [NeZero T.gz] [NeZero T.gy] [NeZero T.gx] (C : Cfg3) (K : Kern3) (fs : Fin 3 → ℝ) : List (Piece3 T) :=
  if isNS C.flowType then
    if C.flowType = "navier_stokes" then nsPiece3 C K fs
    else updPiece3 C K true ++ (nsPiece3 C K fs ++ [locLayer (ranks3 T) fun _ s => { s with forcing := fun _ _ => 0 }])
  else if C.flowType = "passive_vector" then allComps3 (advPiece3 C K) ++ allComps3 (diffPiece3 C K)
  else advPiece3 C K none ++ diffPiece3 C K none

/-- The driver chooses `dt`: a number, or `compute_stable_timestep` (F3D.py:426-449: local limit, `allreduce` with `MPI.MIN`). -/
noncomputable def dtPiece3 (C : Cfg3) (tol : ℝ) : DtRule → List (Piece3 T)
  | .fixed dt => [locLayer (ranks3 T) fun _ s => { s with dt := dt }]
  | .stable pre =>
    [collLayer (ranks3 T) partM3 (fun _ s => { s with buf := fun p => |s.vel 0 p| + |s.vel 1 p| + |s.vel 2 p| }) (fun _ _ => true)
      (fun _ _ s => [okOr 0 (do
        let m ← amax ((innerCells3 T C.g).map s.buf)
        .ok (minInf (C.cfl * simDx3 T C.xr / (m + tol)) (divInf (0.9 * simDx3 T C.xr ^ 2 / (2 * 3)) (C.nu + tol))))]),
     locLayer (ranks3 T) fun _ s => { s with dt := okOr 0 (allreduce min (ranks3 T) fun r => .ok ((s.mb r).headD 0)) * pre }]

/-- What a driver does in one iteration. -/
structure AIter3 where
  rule : DtRule
  fs : Fin 3 → ℝ
  force : Fin 3 → World C3 C3 ℝ

/-- One iteration of a driver: choose `dt`, write the forcing, `time_step` (F3D.py:347-354). -/
noncomputable def iterPiece3 [NeZero T.gz] [NeZero T.gy] [NeZero T.gx] (C : Cfg3) (K : Kern3) (tol : ℝ) (x : AIter3) : List (Piece3 T) :=
  dtPiece3 C tol x.rule ++ ([locLayer (ranks3 T) fun c s => { s with forcing := fun j => x.force j c }] ++ (flowPiece3 C K x.fs ++
    [locLayer (ranks3 T) fun _ s => { s with time := s.time + s.dt }]))

/-- The driver loop. -/
noncomputable def simPieces3 [NeZero T.gz] [NeZero T.gy] [NeZero T.gx] (C : Cfg3) (K : Kern3) (tol : ℝ) (xs : List AIter3) : List (Piece3 T) := xs.flatMap (iterPiece3 C K tol)

/-- The program of each rank. -/
noncomputable def simProg3 [NeZero T.gz] [NeZero T.gy] [NeZero T.gx] (C : Cfg3) (K : Kern3) (tol : ℝ) (xs : List AIter3) : Piece3 T := layersProg (simPieces3 C K tol xs)

end Sopht
