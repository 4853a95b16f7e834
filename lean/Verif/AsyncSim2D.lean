import Verif.AsyncColl
import Verif.Sim2DRun

/-!
# The 2D flow simulator run by ranks at their own speed

The rank program of a driver loop with `UnboundedFlowSimulator2D` (`sopht_mpi/simulator/flow/flow_simulators_mpi_2d.py`, "F2D.py"): one rank executes its own sequence of
local computations, `Isend`, `Irecv`, `Waitall` and collective operations; nothing else synchronises the ranks.  The attributes the program uses are taken to
exist (`Good2`), so no call raises for lack of one.
-/

namespace Sopht

/-- What one rank holds. The arrays of a ghost exchange or domain doubling copy are those the exchange works on (`wU`, `wA`, `wF`, `wD`): copied before the exchange and back
after it, where the code hands over the array itself. A rank of the code holds its slab of the three Fourier arrays; here it holds all of them. -/
structure Rk2 (T : Cart2) where
  prim : C2 → ℝ
  vel : Fin 2 → C2 → ℝ
  buf : C2 → ℝ
  stream : C2 → ℝ
  forcing : Fin 2 → C2 → ℝ
  time : ℝ
  dbl : C2 → ℝ
  four : Dbl2 T → ℂ
  conv : Dbl2 T → ℂ
  green : Dbl2 T → ℂ
  /-- the local variable `dt` of the driver -/
  dt : ℝ
  wU : Unit × ℤ → ℝ
  wA : Option (Fin 2) × ℤ → ℝ
  wF : Fin 2 × ℤ → ℝ
  wD : C2 ⊕ C2 → ℝ
  /-- packets of collective operations -/
  mb : C2 → List ℝ

variable {T : Cart2}

/-- The array of a one-component exchange. -/
def partU2 : Part (Rk2 T) (Unit × ℤ → ℝ) := ⟨fun s => s.wU, fun s a => { s with wU := a }, fun _ _ => rfl, fun _ => rfl, fun _ _ _ => rfl⟩
/-- The arrays of the exchange of field and velocity. -/
def partA2 : Part (Rk2 T) (Option (Fin 2) × ℤ → ℝ) := ⟨fun s => s.wA, fun s a => { s with wA := a }, fun _ _ => rfl, fun _ => rfl, fun _ _ _ => rfl⟩
/-- The arrays of the exchange of the forcing. -/
def partF2 : Part (Rk2 T) (Fin 2 × ℤ → ℝ) := ⟨fun s => s.wF, fun s a => { s with wF := a }, fun _ _ => rfl, fun _ => rfl, fun _ _ _ => rfl⟩
/-- The arrays of a domain doubling copy. -/
def partD2 : Part (Rk2 T) (C2 ⊕ C2 → ℝ) := ⟨fun s => s.wD, fun s a => { s with wD := a }, fun _ _ => rfl, fun _ => rfl, fun _ _ _ => rfl⟩
/-- The packets. -/
def partM2 : Part (Rk2 T) (C2 → List ℝ) := ⟨fun s => s.mb, fun s a => { s with mb := a }, fun _ _ => rfl, fun _ => rfl, fun _ _ _ => rfl⟩

/-- A piece of rank program. -/
abbrev Piece2 (T : Cart2) := C2 → List (AIns C2 (Rk2 T) (List ℝ))

/-- Interior pass of a kernel. -/
def midPass2 {ι β : Type} (T : Cart2) (g k : ℕ) (op : β → β → β) (f : (ι → C2 → ℝ) → β) (A : ι × ℤ → ℝ) (out : C2 → β) : C2 → β :=
  pass2 k op f (fun i p => A (i, flat2 T g p)) out (interiorView2 T g)

/-- Boundary passes of a kernel. -/
def endPass2 {ι β : Type} (T : Cart2) (g k : ℕ) (op : β → β → β) (f : (ι → C2 → ℝ) → β) (A : ι × ℤ → ℝ) (out : C2 → β) : C2 → β :=
  (boundaryViews2 T g k).foldl (pass2 k op f fun i p => A (i, flat2 T g p)) out

/-- `diffusion_timestep` (diffusion_timestep_mpi_2d.py:38-56, diffusion_flux_mpi_2d.py:34-140) as called in F2D.py:267-271. -/
noncomputable def diffPiece2 (C : Cfg2) (K : Kern2) : List (Piece2 T) :=
  [exchLayer (ranks2 T) partU2 (fun _ s => { s with wU := fun i => s.prim (unflat2 T C.g i.2) }) (vecPosts [()] (posts2 T C.g false))
    (fun _ s => { s with buf := midPass2 T C.g 1 (fun _ b => b) (K.diff (C.nu * s.dt / simDx2 T C.xr / simDx2 T C.xr)) s.wU s.buf }),
   locLayer (ranks2 T) fun c s =>
    let flux := zeroSides2 T C.g 0 c (endPass2 T C.g 1 (fun _ b => b) (K.diff (C.nu * s.dt / simDx2 T C.xr / simDx2 T C.xr)) s.wU s.buf)
    { s with buf := flux, prim := fun p => s.wU ((), flat2 T C.g p) + flux (unflat2 T C.g (flat2 T C.g p)) }]

/-- Field and velocity components as `ravel()` shows them. -/
def advArrays2 (T : Cart2) (g : ℕ) (fld : C2 → ℝ) (vel : Fin 2 → C2 → ℝ) (i : Option (Fin 2) × ℤ) : ℝ := match i.1 with
  | none => fld (unflat2 T g i.2)
  | some j => vel j (unflat2 T g i.2)

/-- `advection_timestep` (advection_timestep_mpi_2d.py:38-58, advection_flux_mpi_2d.py:25-131) as called in F2D.py:261-266. -/
noncomputable def advPiece2 (C : Cfg2) (K : Kern2) : List (Piece2 T) :=
  [exchLayer (ranks2 T) partA2
    (fun _ s => { s with
      buf := fun _ => 0
      wA := advArrays2 T C.g s.prim s.vel })
    (vecPosts [none, some 0, some 1] (posts2 T C.g false))
    (fun _ s => { s with buf := midPass2 T C.g 2 (fun a b => a + b) (K.adv (-(s.dt / simDx2 T C.xr))) s.wA s.buf }),
   locLayer (ranks2 T) fun _ s =>
    let flux := endPass2 T C.g 2 (fun a b => a + b) (K.adv (-(s.dt / simDx2 T C.xr))) s.wA s.buf
    { s with
      buf := flux
      prim := fun p => s.wA (none, flat2 T C.g p) + flux (unflat2 T C.g (flat2 T C.g p))
      vel := fun j p => s.wA (some j, flat2 T C.g p) }]

/-- `penalise_field_towards_boundary` (F2D.py:274). -/
noncomputable def penPiece2 (C : Cfg2) : List (Piece2 T) :=
  [locLayer (ranks2 T) fun c s =>
    { s with prim := okOr s.prim (penalise2 T C.g C.w (simDx2 T C.xr) (position2 T C.g C.xr c 0) (position2 T C.g C.xr c 1) c s.prim) }]

/-- A block of the doubled array as a packet. -/
def encBlk2 (T : Cart2) (D : C2 → ℝ) : List ℝ := (subIx2 (2 * T.ny, 2 * T.nx) (0, 0)).map D
/-- … and back. -/
def decBlk2 (T : Cart2) (l : List ℝ) (q : C2) : ℝ := l.getD ((q.1 * (2 * T.nx) + q.2).toNat) 0

/-- `unbounded_poisson_solver.solve` (P2D.py:120-153, F2D.py:275-277): zero the doubled array, copy to it, transform (a collective operation: every rank depends on the blocks
of all others), multiply, transform back, copy from it. -/
noncomputable def solvePiece2 [NeZero T.gy] [NeZero T.gx] (C : Cfg2) : List (Piece2 T) :=
  [exchLayer (ranks2 T) partD2 (fun _ s => { s with wD := Sum.elim s.prim fun _ => 0 }) (toPosts2 T C.g C.d) (fun _ s => s),
   collLayer (ranks2 T) partM2 (fun _ s => { s with dbl := fun q => s.wD (.inr q) }) (fun _ _ => true) (fun _ _ s => encBlk2 T s.dbl),
   locLayer (ranks2 T) fun c s =>
    let four := dft (kern2 T) fun x => ((asm2 T (fun r => decBlk2 T (s.mb r)) x : ℝ) : ℂ)
    let conv := fun k => four k * s.green k
    { s with four, conv, dbl := disasm2 T (fun x => (idft (kern2 T) conv x).re) c },
   exchLayer (ranks2 T) partD2 (fun _ s => { s with wD := Sum.elim s.stream s.dbl }) (fromPosts2 T C.g C.d) (fun _ s => s),
   locLayer (ranks2 T) fun _ s => { s with stream := fun p => s.wD (.inl p) }]

/-- `curl` (outplane_field_curl_mpi_2d.py:34-138) as called in F2D.py:278-282. -/
noncomputable def curlPiece2 (C : Cfg2) (K : Kern2) : List (Piece2 T) :=
  [exchLayer (ranks2 T) partU2 (fun _ s => { s with wU := fun i => s.stream (unflat2 T C.g i.2) }) (vecPosts [()] (posts2 T C.g false))
    (fun _ s =>
      let u := midPass2 T C.g 1 (fun _ b => b) (K.curl (0.5 / simDx2 T C.xr)) s.wU fun p => (s.vel 0 p, s.vel 1 p)
      { s with vel := ![fun p => (u p).1, fun p => (u p).2] }),
   locLayer (ranks2 T) fun c s =>
    let u := zeroSides2 T C.g ((0, 0) : ℝ × ℝ) c (endPass2 T C.g 1 (fun _ b => b) (K.curl (0.5 / simDx2 T C.xr)) s.wU fun p => (s.vel 0 p, s.vel 1 p))
    { s with vel := ![fun p => (u p).1, fun p => (u p).2], stream := fun p => s.wU ((), flat2 T C.g p) }]

/-- `update_vorticity_from_velocity_forcing` (update_vorticity_from_velocity_forcing_mpi_2d.py:27-121) as called in F2D.py:290-294. -/
noncomputable def updPiece2 (C : Cfg2) (K : Kern2) : List (Piece2 T) :=
  [exchLayer (ranks2 T) partF2 (fun _ s => { s with wF := fun i => s.forcing i.1 (unflat2 T C.g i.2) }) (vecPosts [0, 1] (posts2 T C.g false))
    (fun _ s => { s with prim := midPass2 T C.g 1 (fun a b => a + b) (K.upd (s.dt / (2 * simDx2 T C.xr))) s.wF s.prim }),
   locLayer (ranks2 T) fun _ s =>
    { s with
      prim := endPass2 T C.g 1 (fun a b => a + b) (K.upd (s.dt / (2 * simDx2 T C.xr))) s.wF s.prim
      forcing := fun j p => s.wF (j, flat2 T C.g p) }]

/-- `update_velocity_with_free_stream` (F2D.py:222-240). -/
noncomputable def freePiece2 (C : Cfg2) (fs : Fin 2 → ℝ) : List (Piece2 T) :=
  [locLayer (ranks2 T) fun _ s => if C.freeStream then { s with vel := fun j p => s.vel j p + fs j } else s]

/-- `navier_stokes_timestep` (F2D.py:284-287). -/
noncomputable def nsPiece2 [NeZero T.gy] [NeZero T.gx] (C : Cfg2) (K : Kern2) (fs : Fin 2 → ℝ) : List (Piece2 T) :=
  advPiece2 C K ++ diffPiece2 C K ++ (penPiece2 C ++ solvePiece2 C ++ curlPiece2 C K) ++ freePiece2 C fs

/-- `self.flow_time_step` (F2D.py:242-249). -/
noncomputable def flowPiece2 [NeZero T.gy] [NeZero T.gx] (C : Cfg2) (K : Kern2) (fs : Fin 2 → ℝ) : List (Piece2 T) :=
  if C.flowType = "navier_stokes" then nsPiece2 C K fs
  else if C.flowType = "navier_stokes_with_forcing" then
    updPiece2 C K ++ nsPiece2 C K fs ++ [locLayer (ranks2 T) fun _ s => { s with forcing := fun _ _ => 0 }]
  else advPiece2 C K ++ diffPiece2 C K

/-- Head of a packet. -/
def packet0 (l : List ℝ) : ℝ := l.headD 0

/-- The driver chooses `dt`: a number, or `compute_stable_timestep` (F2D.py:300-321: local limit, `allreduce` with `MPI.MIN`). -/
noncomputable def dtPiece2 (C : Cfg2) (tol : ℝ) : DtRule → List (Piece2 T)
  | .fixed dt => [locLayer (ranks2 T) fun _ s => { s with dt := dt }]
  | .stable pre =>
    [collLayer (ranks2 T) partM2 (fun _ s => { s with buf := fun p => |s.vel 0 p| + |s.vel 1 p| }) (fun _ _ => true)
      (fun _ _ s => [okOr 0 (do
        let m ← amax (innerElems2 T C.g s.buf)
        .ok (minInf (C.cfl * simDx2 T C.xr / (m + tol)) (divInf (0.9 * simDx2 T C.xr ^ 2 / (2 * 2)) C.nu)))]),
     locLayer (ranks2 T) fun _ s => { s with dt := okOr 0 (allreduce min (ranks2 T) fun r => .ok (packet0 (s.mb r))) * pre }]

/-- One iteration of a driver: choose `dt`, write the forcing, `time_step` (F2D.py:251-258). -/
noncomputable def iterPiece2 [NeZero T.gy] [NeZero T.gx] (C : Cfg2) (K : Kern2) (tol : ℝ) (rule : DtRule) (fs : Fin 2 → ℝ) (force : Fin 2 → World C2 C2 ℝ) : List (Piece2 T) :=
  dtPiece2 C tol rule ++ [locLayer (ranks2 T) fun c s => { s with forcing := fun j => force j c }] ++ flowPiece2 C K fs ++
    [locLayer (ranks2 T) fun _ s => { s with time := s.time + s.dt }]

/-- What a driver does in one iteration. -/
structure AIter2 where
  rule : DtRule
  fs : Fin 2 → ℝ
  force : Fin 2 → World C2 C2 ℝ

/-- The driver loop. -/
noncomputable def simPieces2 [NeZero T.gy] [NeZero T.gx] (C : Cfg2) (K : Kern2) (tol : ℝ) (xs : List AIter2) : List (Piece2 T) :=
  xs.flatMap fun x => iterPiece2 C K tol x.rule x.fs x.force

/-- The program of each rank. -/
noncomputable def simProg2 [NeZero T.gy] [NeZero T.gx] (C : Cfg2) (K : Kern2) (tol : ℝ) (xs : List AIter2) : Piece2 T := layersProg (simPieces2 C K tol xs)

end Sopht
