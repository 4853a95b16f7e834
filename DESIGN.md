# A Lean 4 model of sopht-mpi

Code modelled: `/repo/sopht_mpi` at the pinned commit. Model and proofs: `/verif/lean/Verif`. Properties: `properties.jsonl`; which theorem
proves which property: `MANIFEST.json`; wrong programs the theorems were tested against: `seeded/`.

## Trusted base

* Lean 4.33.0's kernel; Mathlib (its theorems are checked by the same kernel).
* Lean's three standard axioms and no others. Per theorem (written by `tools/axioms.py` from `#print axioms`):

<!-- axioms -->
* `none` only: Fine.ends, Fine.noStuck, Fine.result.
* `propext` only: While.unique, addEulerian_undefined, addLagrangian_refuses, advectionStep2_buffer_irrelevant, advectionStep3_buffer_irrelevant, crossing_sends_hang, ghostCommCheck_complete, lag_default_name_collision, lag_square_vector, logfile_stuck, save_after_failed_add.
* `propext, Quot.sound` only: addEulField_error_iff, checkSupport_error_iff, exPlot_quiet, fieldCommCheck_accepts_iff, fieldCommCheck_unsound, genFieldKernel3_error_iff, ghostCommCheck_accepts_iff, ghostCommCheck_unsound, lag_counts_sum, lag_node_one_owner, penCheck_ok_iff, rodSave_content, rod_load_not_restoring, scheds2_exist, scheds3_exist, shownAfter_tidy, stale_bar, title_lost, topology2_default, topology2_given, topology3_default, topology3_given, vbf_locality_law, vbf_restart_stale_example, vbf_swap_misattributes, vbf_time, vectorFilter_componentwise, xdmfEul_params.
* `propext, Classical.choice, Quot.sound`: the other 574 of the 616 theorems named in MANIFEST.json.
<!-- /axioms -->

* The hand translation from Python to Lean. Every definition of the model cites the file and lines it models and says where it simplifies.
* Semantics of things outside the repository, written down as definitions of the model (or as hypotheses where marked):
  * MPI: cartesian communicator (`Create_cart`, `Shift`, `Get_cart_rank`): row-major ranks, neighbours `c±1`, wrap if periodic,
    `PROC_NULL` otherwise. Point-to-point messages on one communicator and (default) tag do not overtake: first in, first out per pair of
    source and destination. Derived datatypes (`Create_vector`, `Create_subarray`) are lists of displacements. A non-blocking transfer
    may happen at any time between posting and `Waitall`, in any order across messages. A blocking `Send` may or may not buffer. `Allreduce`,
    `bcast` return the same value on all ranks. (`Msg`, `Blocking`, `Cart`)
  * NumPy: slices with negative bounds, elementwise arithmetic, `x *= 0` gives zero (no NaN).
  * pystencils kernels (package `sopht`): a kernel with support `k` run on a view computes every cell of the view at least `k` away from each side, each
    from the values of the input within distance `k`. Which function of them is a parameter (`Kern2`, `Kern3`, `f`), so the theorems hold
    for all kernels of that reach; where a property needs more (a zero field has no flux: C71), it is a hypothesis with a witness beside it.
  * mpi4py-fft: the transform of the assembled global array, unnormalised forward, normalised backward; its blocks are those of the Cartesian
    decomposition. The convolution theorem and what follows are proved. (`Fourier`)
  * h5py: a file is a map from names to arrays; assigning to a slice of a dataset writes those elements; broadcasting between different shapes
    is an error in the model. (`IO`)
  * `logging`: one logger object per name, a message goes to the handlers whose level it reaches. (`Logger`)
  * elastica and the forcing grids of `sopht`: positions, velocities and what bodies do with the forces are arbitrary functions of everything returned
    so far (driver programs `Prog2`, `Prog3`).
* Floating point is not modelled. Fields live in an arbitrary type, additive commutative group or ordered field where that suffices; the
  simulators, the penalisation, the weights and the Poisson solver use real numbers. Integer overflow (`int32`) is not modelled.

## What is modelled

Arrays are total functions on integer indices; a rank's array is meaningful on `0 ≤ i < n + 2g`. Ranks are their coordinates. `World` is the
arrays of all ranks. `X` models, `XLemmas` are auxiliary, `XProps` (`XRun`, `XGlobal`) state the properties, each with an `example` beside it that meets the
hypotheses on a concrete case. `Spec` is the vocabulary of the statements (which cell of the global grid a local index is, …).

| module | code (`sopht_mpi/…`) | properties |
|---|---|---|
| Cart | `MPIConstruct2D/3D` (utils/mpi_utils_2d.py, mpi_utils_3d.py) | C01–C03 |
| Msg | first-in-first-out matching, datatypes, asynchronous completion (MPI) | C04 |
| Ghost2D | `MPIGhostCommunicator2D`, at flat offsets into `ravel()` | C04–C07, C10–C12 |
| Ghost3DTable, Ghost3D | `MPIGhostCommunicator3D`, its 26 subarray types (table generated by tools/gen_ghost3d.py from the source) | C04, C07–C10 |
| FieldComm | `MPIFieldCommunicator2D/3D` | C13, C14 |
| Lagrangian | `MPILagrangianFieldCommunicator2D/3D` | C15–C17 |
| Vbf | `VirtualBoundaryForcingMPI`, Lagrangian half | C18–C20, C56 |
| Interp | `EulerianLagrangianGridCommunicatorMPI2D/3D` | C21–C23, C29 |
| Blocking, GhostSum | `MPIGhostSumCommunicator2D/3D` | C24–C26 |
| Weights | cosine and Peskin weight kernels | C27, C28, C59, C60 |
| Stencil2D, Stencil3D | diffusion flux, advection flux, curl, divergence, vorticity update, their time steps (numeric/eulerian_grid_ops/stencil_ops_2d, _3d) | C30–C39, C61 |
| Penalise | penalise_field_boundary_mpi_2d.py, _3d.py | C41 |
| Filter | laplacian_filter_mpi_3d.py | C40 |
| Doubling | `MPIDomainDoublingCommunicator2D/3D` | C42–C45 |
| Fourier, Poisson | `UnboundedPoissonSolverMPI2D/3D`, `FFTMPI2D/3D` | C46, C62, C63 |
| IO | `MPIIO`, `CosseratRodMPIIO` (utils/mpi_io.py) | C47, C48, C64 |
| Logger | `MPILogger` (utils/mpi_logger.py) | C49, C50 |
| Sim2D, Sim3D | `UnboundedFlowSimulator2D/3D` | C51–C55, C57, C58, C65–C67, C71 |
| Interactor2D, Interactor3D | `ImmersedBodyFlowInteractionMPI`, `EmptyForcingGrid`, rigid body and Cosserat rod interaction, Eulerian half of `VirtualBoundaryForcingMPI` | C68–C70, C74 |
| Restart2D, Restart3D | checkpointing of a simulator with `MPIIO` as in the drivers, and restart from the file | C75 |
| Balance2D, Balance3D, StableDt | no new code modelled: further theorems about Interactor2D/3D and Sim2D/3D | C76, C77 |
| VbfLocal | `VirtualBoundaryForcingMPI` and the interactor with `assume_data_locality=True` | C78 |
| Pointwise | `brinkmann_penalise_mpi_*.py`, `char_func_from_level_set_mpi_*.py` (function of one cell's values a parameter) | C79 |
| Dims | `rank_distribution` and `MPI.Compute_dims` in `MPIConstruct2D/3D` | C80 |
| Xdmf, XdmfProps | `MPIIO.generate_xdmf_eulerian`, `generate_xdmf_lagrangian` and their callers in `save` | C81 |
| Async, AsyncExch, AsyncLayers, AsyncColl | non-blocking messages, `Waitall` and collectives with every rank at its own speed (MPI) | C82 |
| AsyncSim2D, AsyncSim2DProps | the rank program of a driver loop with `UnboundedFlowSimulator2D` | C82 |
| AsyncSim3D, AsyncSim3DProps | the rank program of a driver loop with `UnboundedFlowSimulator3D`, with the vorticity filter | C83 |
| VbfRestart | checkpoint of an interactor as in the freely rotating rod example: `forcing_grid_io`, remapping and scattering after loading; which mismatch is in the file | C84 |
| CRestart3D, CRestart2D | a driver with flow and immersed bodies interrupted by a checkpoint and restarted on another decomposition | C84 |
| RestartStill3D | nothing modelled: restarts in 3D without a free stream | C122 |
| AsyncDyn, AsyncItems, AsyncLift, AsyncVbf | `VirtualBoundaryForcingMPI` with every rank at its own speed, the partners chosen from the rank's own data | C85 |
| AsyncGS | `ghost_sum` with every rank at its own speed (`EulerianLagrangianGridCommunicatorMPI{2D,3D}.py`) | C86, C87 |
| AsyncIb2D, AsyncIb2DProps | 2D drivers with flow and bodies, every rank at its own speed | C86 |
| AsyncIb3D, AsyncIb3DProps | 3D drivers with flow and bodies, every rank at its own speed | C87 |
| LocalDeviation | `get_grid_deviation_error_l2_norm(compute_global=False)` | C88 |
| Plotter | `MPIPlotter2D` (matplotlib as described in the module) | C89 |
| Conserve2D | 2D simulator with central difference kernels: totals, bounds, divergence | C90, C91, C92 |
| Conserve3D, Conserve3DProps | the same in 3D; divergence of the vorticity | C90, C91, C92, C93 |
| Symmetry2D, Symmetry3D, Symmetry3DProps | symmetries of the simulators | C94, C95 |
| FixedBody, FixedBody3 | drivers for flow past a cylinder / a sphere, with timers and drag | C104 |
| Moments, Moments3 | first and second moments of passive fields; impulse of the flow | C105, C106 |
| Placement2D, Placement3D | two grids over the same fluid | C107 |
| Validate2D, Validate3D | the two validation drivers, whole | C108 |
| RodDriver, RodDriver3 | the drivers for the flow past a rod | C109 |
| Dissipate2D, Dissipate3D | diffusion dissipates and keeps order | C110 |
| BodyBudget2D, BodyBudget3D | circulation and divergence with immersed bodies | C111 |
| BodyPlace2D, BodyPlace3D | two grids over the same fluid and bodies | C112 |
| BodyCopies2D, BodyCopies3D | the copies of a body on all ranks, the rod drivers as every rank runs them | C113 |
| Coupling | resolution message and scaling of the coefficients on every rank | C114 |
| Units2D, Units3D | change of units of whole runs | C115 |
| Cylinder2D, Sphere3D | the fixed-body drivers as functions of their arguments | C116 |
| Machine2D, Machine3D | passive transport for an arbitrary machine arithmetic | C117 |
| LogFile | the log file that all ranks write: `MPIFileHandler` | C118 |
| FlowRod2D | the 2D rod driver from its arguments to its records | C119 |
| FlowRod3D | the 3D rod driver from its arguments to its records | C120 |
| FlowSpin3D | the driver of the freely rotating rod from its arguments to its records | C121 |
| SubSteps, SubSteps3, Origin, Norms, Analytic | sub-stepping, output origins, error norms and reference solutions of the example drivers | C100 – C103 |
| TimeLoop, TimeLoop3, Snapshots, FileNames, Checkpoint | time loops, timers, file names and restarts of the example drivers | C96 – C99 |
| Complements | 3D versions: ghost cells computed by kernels, periodic doubling with odd counts, linearity and reciprocity of the solve | C44, C61, C63 |
| PeriodicSpread | ghost sum, spreading and adjointness on periodic domains | C23, C24, C29 |
| Choreo, CommProgs | the rank programs of `MPIFieldCommunicator2D/3D`, `MPILagrangianFieldCommunicator2D/3D`, `VirtualBoundaryForcingMPI` as lists of blocking calls | C72, C73 |

## What is not modelled

* Floating point (see above), threads inside the kernels, performance, memory.
* `utils/lab_cmap.py`, matplotlib (C89 assumes what its calls do), `doc/`, `tests/`; of `examples/` only what C96 and later are about (time loops, timers, file names, checkpoints, sub-stepping, output origins, error norms, reference solutions, drag).
* XDMF text (the file names are, C64, and the values the templates are filled with, C81); time stamps in log file names.
* Ranks at their own speed are modelled for the 2D and 3D simulators (C82, C83), virtual boundary forcing (C85) and flow with bodies (C86, C87); the other models start all ranks of one exchange together. In the C82 model a collective
  (`allreduce`, the transposes inside an FFT) is a packet from every rank to every rank, each rank holds the whole Fourier arrays, and exchanged arrays are copied to and from a buffer.
* Failure of MPI itself, ranks calling collective methods in different orders.

## How each property is proved

* C01, C02: constructor with an `Except` result; Euclidean division gives the unique owner.
* C03: modular arithmetic on coordinates, for all rank counts and both periodicities.
* C04: the list of posted operations is modelled; matching is defined on lists; for every pair of ranks the directions sent and received coincide.
* C05–C09: message completion is an arbitrary interleaving of read and write events; the final state is characterised cell by cell, in 2D at the level of
  flat offsets, in 3D at the level of subarray starts and subsizes.
* C10: corollaries of the characterisation.
* C11: the check as written; proved exactly which values pass; the desired property fails, with witnesses.
* C12: a concrete run that delivers a wrong value (a negation).
* C13, C14: master/slave transfers through subarray types; cellwise characterisation; any visiting order of the slaves.
* C15–C17: positions in an ordered field with floor; truncation and floor arithmetic; index lists.
* C18–C20: state machine over call histories; invariant by induction; a two-rank swap as a counterexample.
* C21–C23, C29: windows in ℤ, finite sums, the closed form of the ghost sum.
* C24, C25: four and six phase model of `ghost_sum`; closed form of the result.
* C26: small-step semantics with rendezvous sends; progress and termination measure; a stuck state for rings.
* C27, C28, C59, C60: real analysis of the kernels (trigonometric identities, square roots), then the tensor products.
* C30–C37, C61: passes over views, exact count of how often each cell is computed, simulation of the serial kernel by the distributed one.
* C38, C39: induction over steps.
* C40, C41: iterates and ramps; zone by zone comparison with the serial operator.
* C42–C45: coordinate arithmetic of the doubling map; matching of its messages; zero padding.
* C46, C62, C63: the solve is reduced to a cyclic convolution on the doubled grid, which has no images on the actual grid.
* C47, C48, C64: file = finite map from names to arrays; heap of referenced arrays; histories of registrations.
* C49, C50: list semantics of removal during iteration.
* C51, C52, C56, C58: reductions over ranks and cells equal the reduction over the global grid.
* C53, C54: induction over histories. C55: affine arithmetic. C57, C69: decision procedure of the constructors, iff statements.
* C65, C66: an invariant (`SimHolds2`, `SimHolds3`: every rank's array is the window of a global field) preserved by every phase of every step under every
  message schedule; the global fields evolve by a reference solver that mentions no ranks (`refRun2`, `refRun3`). C67: iff.
* C68, C70: the same invariant extended by the nodes; a driver program is an interaction tree whose continuations receive everything returned, so any adaptive
  driver is covered; hypothesis `Tracked` (no migration that the count comparison misses, see C20) holds on one rank and for bodies at rest, proved.
* C71: zero is a fixed point of the reference solver; transferred to the ranks by the same invariant.
* C72, C73: small-step semantics of `Send`, `Recv` and collectives for programs given rank by rank. The programs are the projections of one global sequence of
  messages (proved, not assumed); an invariant relates any reachable configuration to a partially executed sequence, which gives progress, termination and the
  unique result. In C73 each rank picks its program from its own state; that the ranks agree is proved. The split at `allreduce` is exact because no rank
  passes it before all have entered it.
* C74: window sums rewritten as sums over the array; the cosine vanishes where the window cuts it off.
* C75: loading gives the saved fields inside the domain and the fresh ones beyond its sides; a step with a wide enough penalty zone does not look beyond the sides (the penalty zone is overwritten from a column that did not), so agreement inside the domain is kept by every step.
* C76: spreading is the adjoint of interpolation (weights are the same on both sides, every node's support lies in the union of inner blocks after the ghost sum), so pairing the spread force with a field gives the sum over nodes of force times interpolated field; with the field 1 the weights sum to one (C28).
* C77: the `max`/`min` over ranks bounds each cell; a maximum over a finite non-empty set is attained.
* C78: simulation relation (`SameNodes`, `SameIb2/3`) between the two modes, kept by every call; the numbering of the whole body is any interleaving of the ranks' nodes.
* C79: cellwise; the closed form of the exchange (C05, C08) commutes with pointwise functions.
* C80: `MPI_Dims_create` as a relation (keeps nonzero entries, non-increasing new entries, product is the rank count); then the iff statements of C57 and C67.
* C81: the datasets of a file as a partial function from paths to shapes; induction over the registered fields shows that `save` and the XDMF generator add the same paths. Files after the save: last write of any interleaving of the ranks' writes; `str.replace` is injective in the new text.
* C82: small-step semantics of ranks, posted requests and message events. A program made of communication-closed layers (every rank ends its part with `Waitall`, every pair of ranks agrees on the number of messages) can be cut: any execution of `P ++ Q` is an execution of `P` followed by one of `Q`, because requests of `Q` are matched only with requests of `Q` and a message of `Q` cannot touch a rank still in `P` (commutation of steps). Progress and a termination measure are proved alongside. Each layer is then related to the lock-step model, for some complete schedule of its messages, and the theorems of C65 about all schedules apply.
* C83: as C82, piece by piece for the 3D time step (vector components exchanged one after the other; the filter is an exchange followed by a local pass for every direction, order and component).
* C84: the file round trip for the three arrays; an invariant that the global position mismatch of the master is the current one since no time step followed the last interaction (the velocity mismatch is not, shown by a counterexample); after remapping, the node records are those of the file (`remap_stores`). The driver after the restart is compared with the uninterrupted one by induction over the program (`agree3_run`), using that the penalty zone makes cells outside the domain irrelevant (as C75) and that an interaction overwrites velocity mismatch and force.
* C85: C82's semantics extended by programs whose next part is chosen from the rank's own state when it gets there. If for every round there are closed pieces which all ranks' parts agree with (whatever the state other ranks are in, since a rank of the next part has seen only finished pieces), every execution is fine (`rounds_sound`). The blocking choreographies of C72/C73 become such pieces (`items_exec`), one per layer, and are lifted from a part of the state and of the message type to the whole (`liftPieces_exec`). Negative part: counting the messages between two ranks.
* C86: each call of a driver becomes pieces of C82/C85 (ghost sums: the phases of C21, ranks numbered so that the messages of a phase go down), which leave every rank with its share of the state of C68; induction over the driver, with one program per rank (`Follows2`: same calls, the data of a body only on its master).
* C87: as C86, over C83 and C70; `get_vorticity_divergence_l2_norm` is one exchange, a local stencil and one reduction.
* C88: the local mismatch array is the node mismatches of the rank's own nodes (invariant of C18); the count of nodes is read from the forcing grid, which is empty away from the master.
* C89: the calls as programs of blocking messages (C72); invariant over the history of calls relating the master's figure to the calls since the last `clearfig`.
* C90: summation by parts on the global grid: where the support keeps away from the sides every part of a step is a shift-invariant operator whose difference terms sum to zero; carried to the ranks by C62/C66.
* C91: a step is a convex combination of neighbouring values when `2 d ν dt ≤ dx²`, which the stable time step guarantees; induction over the steps.
* C92: the velocity of the global grid is the central curl of the free-space solution plus a constant; the central differences commute.
* C93: the vorticity updates add curls, and diffusion and both filters commute with shifts and differences (`Inv3`), so the divergence satisfies the same linear equations with zero data.
* C94: a map of cells that commutes with every part of the global step (`Sym2`) commutes with the run by induction; carried to the ranks by C62.
* C95: as C94 with `Sym3`; `filter_prefers_axes` is a concrete field on a 4 x 4 x 4 grid.
* C96: the clock advances by at least the stable step at the velocity bound, so it passes `t_end` (`clock_passes`); the iterations are those of C65/C66.
* C97: invariant of the timer (`snapSeq_spec`): it is the time since the last snapshot; the rest are consequences of the specification `Snapshots`.
* C98: decimal digits by strong induction; names of fixed width compare like numbers (`fixed_lt`).
* C99: the disk after n steps is split into complete checkpoints and a part of the next (`crash_split`); eight cases for the part (`restart_core`).
* C100: floor of a quotient of at least 1; the clocks by induction over sub-steps and iterations of the driver programs of C68 and C70.
* C101: positions in terms of the global index (C55), and the rank that owns cell 0.
* C102: sums over blocks are sums over the grid (`sum_blocks2`/`3`); maxima likewise.
* C103: derivatives of Gaussians axis by axis.
* C104: the driver as a program of C68/C70; states of the loop = runs of n iterations, the timers of C97 nested around them; the forces by the balance of C76.
* C105: summation by parts against the coordinates on the global grid (as in C90, with weights), carried to the ranks by C66.
* C106: the curl against the coordinates; diffusion, filter and penalisation leave first moments alone; C104 gives the node forces.
* C107: each stage of the step on the global grid moves with its fields; the free-space solution is a sum over all cells of a function of differences; carried to the ranks by C65/C66.
* C108: loop states from C65/C66, iterations with snapshots from C97, errors from C102, pictures from C89, files from the save half of C47; all put together for the two drivers.
* C109: sub-steps, interaction and flow step from C100 and C65/C66 one iteration at a time, with the body between them; timers from C97 (for 3D with snapshots that write: lookLoop); bound on the iterations from C96.
* C110: a step is a convex combination of the neighbours (Jensen); the sums are shifted over the whole grid, then split into ranks as in C90; runs by induction.
* C111: spread forces vanish outside the windows of the nodes; induction over the driver program with the one step lemmas of C90 and C93; the ranks follow the global run (C68 and C70).
* C112: windows and weights of moved nodes are the moved windows and weights; relation between the two global runs kept by every call of the driver (flow steps by C107), induction over the program; the ranks follow the global runs (C68 and C70).
* C113: the programs of the ranks follow one program which steps all copies together (Follows2, Follows3), for every choice of the rank whose records are read, so C86 and C87 apply; seen from the master it is the program with one copy; the records of the global run (timers, diaries, end of the loop) by induction over iterations and sub-steps, against specifications of the coupled body, the body adrift, the timers and the diary that do not mention the program.
* C114: induction over the list of interactors, with the arrays of the caller as a store.
* C115: the run on the global grid commutes with the change of units, kernel by kernel (the 2D Green's function changes by a constant, which the curl removes), then by induction over steps and driver programs, and C65, C66, C68, C70 for the ranks.
* C116: the drivers' arithmetic gives the arguments of simulator and interactor; the body's windows of support are inside by arithmetic on floors; then C70 for the ranks and the loop with its timers by induction, with an invariant because a snapshot exchanges ghost cells (3D).
* C117: the passes, exchanges and updates are proved for a type with + and 0 and no laws: an inner cell is written by exactly one pass; greatest values do not depend on the order, limits are antitone, so the minimum over ranks is the limit of the greatest; induction over the rounds. The exact theorems tie the model to Sim2D, Sim3D.
* C118: small steps (record, emit of one handler, next, opening by all); invariant per file: pointer of a handle = old length + lines it has written, a later handle has written a subset of what an earlier one has, the last handle's lines are in the file, the first one's length is the file's; a measure bounds the number of steps.
* C119: instance of C109 with the constants of the driver; geometry of the inclined rod shows the window of every node is inside at the start; existence and uniqueness of the result from the deterministic loop.
* C120: instance of C109 with the constants of the driver; geometry of the inclined rod shows the window of every node is inside at the start; existence and uniqueness of the result from the deterministic loop.
* C121: as C120, with the initial velocity and the filter of this driver; numbers of files from the specification of snapshots.
* C122: beyond the sides, a step looks only at u × ω, which is 0 there when u is; diffusion and filter of a cell look at cells of the domain only, the penalty zone is overwritten from inside the domain, and the velocity of the next step depends on vorticity in the domain (`refNS3_alike`). After a step without a free stream the velocity beyond the sides is 0 again. `agree3_run` and `crestart3` take this or the wide penalty zone. The free stream matters: a counterexample like that of C75, with kernels that let u × ω of the first ghost cell through (`restart3_free_stream_inexact`), and so does the velocity the new simulator was set up with beyond the sides (`restart3_moving_beyond_inexact`).

## Tests against wrong programs

`seeded/run_mutations.py` applies each edit of `seeded/mutations*.json` to a scratch copy, rebuilds and appends to `seeded/LOG.jsonl`. Surviving edits are
either equivalent (the log says why) or led to a stronger theorem (field `tightened`).
