{"id": "C01", "title": "Domain decomposition is an exact partition", "statement": "After MPIConstruct2D/3D succeeds, every global grid cell lies in the inner block of exactly one rank, and all blocks have the same local grid size.", "quantifier": "every global grid size, every process topology and every cell", "why_tests_cant": "tests run a handful of sizes and rank counts", "anchors": ["sopht_mpi/utils/mpi_utils_2d.py: MPIConstruct2D.__init__", "sopht_mpi/utils/mpi_utils_3d.py: MPIConstruct3D.__init__"]}
{"id": "C02", "title": "Uneven decompositions are refused", "statement": "MPIConstruct2D/3D raises RuntimeError exactly when some axis of the global grid is not a multiple of the number of ranks along that axis; otherwise local size times topology equals the global size.", "quantifier": "every global grid size and topology", "why_tests_cant": "the set of grid sizes and rank distributions is infinite; tests try a handful of sizes that divide evenly", "anchors": ["sopht_mpi/utils/mpi_utils_2d.py: MPIConstruct2D.__init__", "sopht_mpi/utils/mpi_utils_3d.py: MPIConstruct3D.__init__"]}
{"id": "C03", "title": "Neighbour tables are symmetric", "statement": "Rank b is the next rank of a along an axis iff a is the previous rank of b along that axis; a neighbour is PROC_NULL exactly at the ends of a non-periodic axis; the diagonal neighbour in direction s of a is b iff the neighbour in direction -s of b is a.", "quantifier": "every topology, periodicity, rank and direction", "why_tests_cant": "the number of topologies is unbounded", "anchors": ["sopht_mpi/utils/mpi_utils_2d.py: MPIConstruct2D.__init__, MPIGhostCommunicator2D._get_diagonally_shifted_coord_rank", "sopht_mpi/utils/mpi_utils_3d.py: MPIConstruct3D.__init__, MPIGhostCommunicator3D._get_diagonally_shifted_coord_rank"]}
{"id": "C04", "title": "Halo-exchange messages always pair up correctly", "statement": "With untagged non-overtaking point-to-point messages, the j-th message from a to b is received by the j-th receive b posts for a, and in every ghost exchange this pairs each directional send with the receive of the same direction and the same number of elements, even when several neighbours are the same rank; no send and no receive is left unmatched, so exchange_finalise returns.", "quantifier": "every topology (including 1 or 2 periodic ranks per axis), ghost size, local size", "why_tests_cant": "coincident neighbours need particular rank counts; message races are schedule dependent", "anchors": ["sopht_mpi/utils/mpi_utils_2d.py: MPIGhostCommunicator2D", "sopht_mpi/utils/mpi_utils_3d.py: MPIGhostCommunicator3D"]}
{"id": "C05", "title": "2D edge ghost exchange delivers neighbour data", "statement": "After exchange_scalar_field_init and exchange_finalise on a 2D field, each left/right/top/bottom ghost cell whose neighbour exists holds the value of the corresponding inner cell of that neighbour; inner cells, corner ghosts and ghosts at physical boundaries keep their values.", "quantifier": "every field, topology, local size >= ghost size, ghost size and every order in which messages complete", "why_tests_cant": "message completion order and sizes are unbounded", "anchors": ["sopht_mpi/utils/mpi_utils_2d.py: MPIGhostCommunicator2D.__init__, exchange_scalar_field_edges_init, exchange_scalar_field_init, exchange_finalise"]}
{"id": "C06", "title": "2D full ghost exchange delivers corner data", "statement": "With full_exchange, additionally each corner ghost block whose diagonal neighbour exists holds that neighbour's inner corner values.", "quantifier": "every field, topology, local size >= ghost size, ghost size and completion order", "why_tests_cant": "corner data needs two consecutive exchanges (or a diagonal message); whether it arrives depends on every grid size, ghost size, topology and on the order in which the non-blocking messages complete, of which a test run sees one", "anchors": ["sopht_mpi/utils/mpi_utils_2d.py: MPIGhostCommunicator2D vertices exchange"]}
{"id": "C07", "title": "After a full exchange every rank sees a window of the global field", "statement": "If rank-local inner cells hold a global field, then after a full exchange every ghost cell whose global index is inside the domain (or wraps, when periodic) holds the global field's value there.", "quantifier": "every global field, topology, ghost size and schedule", "why_tests_cant": "needs all cells and all decompositions", "anchors": ["sopht_mpi/utils/mpi_utils_2d.py: MPIGhostCommunicator2D", "sopht_mpi/utils/mpi_utils_3d.py: MPIGhostCommunicator3D"]}
{"id": "C08", "title": "3D face ghost exchange delivers neighbour data", "statement": "After a 3D exchange each of the six face ghost slabs whose neighbour exists holds the neighbour's inner values; nothing else changes.", "quantifier": "every field, topology, local size >= ghost size, ghost size, completion order", "why_tests_cant": "must hold for all sizes, topologies, periodicities and for every completion order of up to six non-blocking messages per rank; a test sees one order and a few sizes", "anchors": ["sopht_mpi/utils/mpi_utils_3d.py: MPIGhostCommunicator3D"]}
{"id": "C09", "title": "3D full ghost exchange delivers edge and vertex data", "statement": "With full_exchange, additionally the twelve edge and eight vertex ghost blocks hold the corresponding neighbour's inner values.", "quantifier": "every field, topology, local size >= ghost size, ghost size, completion order", "why_tests_cant": "26 directions times all topologies", "anchors": ["sopht_mpi/utils/mpi_utils_3d.py: MPIGhostCommunicator3D"]}
{"id": "C10", "title": "Ghost exchange is repeatable and componentwise", "statement": "Repeating an exchange changes nothing, and a vector field exchange gives each component exactly what a scalar exchange of that component gives.", "quantifier": "every field, topology, ghost size, schedule", "why_tests_cant": "quantifies over unbounded histories of exchanges and over stale ghost contents left by earlier calls", "anchors": ["sopht_mpi/utils/mpi_utils_2d.py: exchange_vector_field_init", "sopht_mpi/utils/mpi_utils_3d.py: exchange_vector_field_init"]}
{"id": "C11", "title": "Ghost exchange validates ghost size", "statement": "The communicators should refuse a ghost size that is not a positive integer (resp. non-negative integer for field communication). In this code the check joins its two conditions with 'and', so it accepts non-positive integers; only non-integers <= 0 are refused.", "quantifier": "every ghost size value", "why_tests_cant": "tests of one bad value pass by luck", "anchors": ["sopht_mpi/utils/mpi_utils_2d.py: MPIGhostCommunicator2D.__init__, MPIFieldCommunicator2D.__init__", "sopht_mpi/utils/mpi_utils_3d.py: MPIGhostCommunicator3D.__init__"]}
{"id": "C12", "title": "A block thinner than the ghost layer breaks the exchange", "statement": "The exchange needs local size >= ghost size on each axis; the code does not check it, and with a thinner block the delivered ghost values can be wrong.", "quantifier": "existence of a failing run; correctness for all local size >= ghost size", "why_tests_cant": "tests only use blocks thicker than the ghost layer, so the failing region of the parameter space is never visited", "anchors": ["sopht_mpi/utils/mpi_utils_2d.py: MPIGhostCommunicator2D"]}
{"id": "C13", "title": "Scatter delivers each rank its block", "statement": "scatter_global_field leaves on every rank, in the inner cells, exactly the block of the master's global field owned by the rank, and does not touch ghost cells.", "quantifier": "every global field, topology, ghost size, master rank", "why_tests_cant": "all rank counts, grid sizes and orders in which the master's sends meet the receives; tests use one to eight ranks and one order", "anchors": ["sopht_mpi/utils/mpi_utils_2d.py: MPIFieldCommunicator2D", "sopht_mpi/utils/mpi_utils_3d.py: MPIFieldCommunicator3D"]}
{"id": "C14", "title": "Gather assembles the global field", "statement": "gather_local_field assembles on the master the field whose value at every global cell is the owning rank's inner value; gather after scatter is the identity, and scatter after gather restores inner cells.", "quantifier": "every fields, topology, ghost size, master rank", "why_tests_cant": "all rank counts, grid sizes and arrival orders at the master; tests use few ranks and see one order", "anchors": ["sopht_mpi/utils/mpi_utils_2d.py: MPIFieldCommunicator2D", "sopht_mpi/utils/mpi_utils_3d.py: MPIFieldCommunicator3D"]}
{"id": "C15", "title": "Each Lagrangian node is owned by exactly one rank", "statement": "For every node inside the domain, map_lagrangian_nodes_based_on_position assigns it to exactly one rank: the one whose physical block contains it; local node counts sum to the total.", "quantifier": "every set of node positions and topology", "why_tests_cant": "node positions range over a continuum, including block boundaries where rounding of the ownership formula matters; tests sample positions", "anchors": ["sopht_mpi/utils/mpi_utils_2d.py: MPILagrangianFieldCommunicator2D", "sopht_mpi/utils/mpi_utils_3d.py: MPILagrangianFieldCommunicator3D"]}
{"id": "C16", "title": "Nodes outside the domain abort the run", "statement": "A node at or beyond the upper end of the domain aborts the run. A node below the lower end should too; in this code a node less than one block below is silently given to the first block and one farther below wraps to a rank at the other end.", "quantifier": "every out-of-domain position", "why_tests_cant": "tests only check the upper side", "anchors": ["sopht_mpi/utils/mpi_utils_2d.py: _compute_lag_nodes_rank_address", "sopht_mpi/utils/mpi_utils_3d.py: _compute_lag_nodes_rank_address"]}
{"id": "C17", "title": "Lagrangian scatter and gather are inverse", "statement": "After mapping, scatter_global_field gives each rank its nodes' values in increasing node order, and gather_local_field puts them back: gather after scatter is the identity on every node.", "quantifier": "every node set, mapping, field", "why_tests_cant": "all node distributions (also ranks without nodes), all rank counts and arrival orders; tests use one distribution", "anchors": ["sopht_mpi/utils/mpi_utils_2d.py: MPILagrangianFieldCommunicator2D scatter_global_field gather_local_field", "sopht_mpi/utils/mpi_utils_3d.py"]}
{"id": "C18", "title": "Virtual boundary forcing law", "statement": "Each step the force on every node is stiffness times accumulated position mismatch plus damping times velocity mismatch, where velocity mismatch is interpolated flow velocity minus body velocity at that node.", "quantifier": "every node, step, history", "why_tests_cant": "histories of interactions, time steps and node migrations are unbounded", "anchors": ["sopht_mpi/numeric/immersed_boundary_ops/VirtualBoundaryForcingMPI.py: VirtualBoundaryForcingMPI"]}
{"id": "C19", "title": "Position mismatch is the time integral of velocity mismatch", "statement": "After any sequence of steps, with nodes that keep their rank, the position mismatch of each node is the sum of dt times velocity mismatch over the time steps so far, and time is start time plus the sum of dt.", "quantifier": "every history of interaction and time-step calls", "why_tests_cant": "unbounded histories with varying time steps", "anchors": ["sopht_mpi/numeric/immersed_boundary_ops/VirtualBoundaryForcingMPI.py: time_step, compute_interaction_forcing"]}
{"id": "C20", "title": "Node migration keeps each node's own history", "statement": "When nodes move between ranks each node should keep its own position mismatch. In this code it does whenever some rank's node count changes, but not when nodes swap ranks leaving all counts unchanged: then position mismatches are attributed to the wrong nodes.", "quantifier": "every migration pattern", "why_tests_cant": "needs simultaneous crossing of boundaries with equal counts", "anchors": ["sopht_mpi/numeric/immersed_boundary_ops/VirtualBoundaryForcingMPI.py: update_buffers"]}
{"id": "C21", "title": "Interpolation window is inside the local array", "statement": "For every node owned by a rank, the support window of width 2w around the nearest cell lies inside the rank's array with ghosts when ghost size >= w, and construction refuses ghost size < w.", "quantifier": "every node position, topology, kernel width and ghost size", "why_tests_cant": "node positions range over a continuum and the worst case lies on the block boundary", "anchors": ["sopht_mpi/numeric/immersed_boundary_ops/EulerianLagrangianGridCommunicatorMPI2D.py: local_eulerian_grid_support...", "sopht_mpi/numeric/immersed_boundary_ops/EulerianLagrangianGridCommunicatorMPI3D.py"]}
{"id": "C22", "title": "Interpolation does not depend on the decomposition", "statement": "The value interpolated at an owned node from the local array after a full ghost exchange equals the value a single-rank run interpolates from the global field (nodes at least w cells inside the domain).", "quantifier": "every field, node, topology, ghost size, weights depending on positions", "why_tests_cant": "quantifies over all fields, all positions in a continuum and all pairs of decompositions; tests compare one pair", "anchors": ["sopht_mpi/numeric/immersed_boundary_ops/EulerianLagrangianGridCommunicatorMPI2D.py", "sopht_mpi/numeric/immersed_boundary_ops/EulerianLagrangianGridCommunicatorMPI3D.py"]}
{"id": "C23", "title": "Spreading does not depend on the decomposition", "statement": "lagrangian_to_eulerian_grid_interpolation (spreading on every rank followed by the ghost sum) leaves in inner cells the sum over all nodes of all ranks of node value times weight at that global cell, i.e. the single-rank result.", "quantifier": "every node set, field values, topology", "why_tests_cant": "quantifies over all forces, positions, pairs of decompositions and message orders; tests compare one pair", "anchors": ["sopht_mpi/numeric/immersed_boundary_ops/EulerianLagrangianGridCommunicatorMPI2D.py: lagrangian_to_eulerian_grid_interpolation_kernel, MPIGhostSumCommunicator2D", "sopht_mpi/numeric/immersed_boundary_ops/EulerianLagrangianGridCommunicatorMPI3D.py"]}
{"id": "C24", "title": "Ghost sum accumulates each ghost contribution exactly once", "statement": "ghost_sum adds every ghost cell of every rank (faces, edges, corners) exactly once to the cell of the rank that owns it, adds nothing else, and leaves all ghosts zero.", "quantifier": "every field, topology, ghost size <= local size", "why_tests_cant": "corner routing depends on order over all topologies", "anchors": ["sopht_mpi/numeric/immersed_boundary_ops/EulerianLagrangianGridCommunicatorMPI2D.py: MPIGhostSumCommunicator2D.ghost_sum", "sopht_mpi/numeric/immersed_boundary_ops/EulerianLagrangianGridCommunicatorMPI3D.py: MPIGhostSumCommunicator3D.ghost_sum"]}
{"id": "C25", "title": "Ghost sum conserves the total", "statement": "On a fully periodic topology the sum over all inner cells after ghost_sum equals the sum over all cells including ghosts before; on a non-periodic one nothing is lost when no value lies in ghosts beyond the physical boundary.", "quantifier": "every field and topology", "why_tests_cant": "quantifies over all fields and every topology and periodicity, including ranks that are their own neighbour; tests check few", "anchors": ["sopht_mpi/numeric/immersed_boundary_ops/EulerianLagrangianGridCommunicatorMPI2D.py", "sopht_mpi/numeric/immersed_boundary_ops/EulerianLagrangianGridCommunicatorMPI3D.py"]}
{"id": "C26", "title": "Ghost sum terminates", "statement": "With blocking sends that may wait for the receiver (no buffering), ghost_sum terminates for every non-periodic topology and every interleaving; on a periodic axis all ranks can block forever.", "quantifier": "every number of ranks and every schedule", "why_tests_cant": "depends on MPI buffering and schedule", "anchors": ["sopht_mpi/numeric/immersed_boundary_ops/EulerianLagrangianGridCommunicatorMPI2D.py: ghost_sum", "sopht_mpi/numeric/immersed_boundary_ops/EulerianLagrangianGridCommunicatorMPI3D.py: ghost_sum"]}
{"id": "C27", "title": "Interpolation weights sum to one (cosine)", "statement": "For the cosine kernel, the 2w per axis weights times dx sum to one at every node position, so a constant field is interpolated exactly and spreading conserves total force.", "quantifier": "every real node offset in [0,1) and every dx>0, both 2D and 3D", "why_tests_cant": "holds for a continuum of offsets; tests sample them and compare with a tolerance", "anchors": ["sopht_mpi/numeric/immersed_boundary_ops/EulerianLagrangianGridCommunicatorMPI2D.py: generate_cosine_interpolation_weights_kernel_2d", "sopht_mpi/numeric/immersed_boundary_ops/EulerianLagrangianGridCommunicatorMPI3D.py"]}
{"id": "C28", "title": "Interpolation weights sum to one (Peskin)", "statement": "Same for the Peskin kernel.", "quantifier": "every real node offset in [0,1) and every dx>0", "why_tests_cant": "holds for a continuum of offsets across four branches of a square-root formula; tests sample them with a tolerance", "anchors": ["sopht_mpi/numeric/immersed_boundary_ops/EulerianLagrangianGridCommunicatorMPI2D.py: generate_peskin_interpolation_weights_kernel_2d", "sopht_mpi/numeric/immersed_boundary_ops/EulerianLagrangianGridCommunicatorMPI3D.py"]}
{"id": "C29", "title": "Interpolation and spreading are adjoint", "statement": "The sum over nodes of node value times interpolated field equals dx^dim times the sum over grid cells of field times spread value, so interaction power is consistent.", "quantifier": "every field, node values, positions", "why_tests_cant": "an identity between two linear maps: for all fields, forces and positions", "anchors": ["sopht_mpi/numeric/immersed_boundary_ops/EulerianLagrangianGridCommunicatorMPI2D.py", "sopht_mpi/numeric/immersed_boundary_ops/EulerianLagrangianGridCommunicatorMPI3D.py"]}
{"id": "C30", "title": "Kernels refuse a ghost layer thinner than the stencil", "statement": "Every stencil kernel generator raises ValueError exactly when ghost size is less than the kernel support.", "quantifier": "every ghost size and support", "why_tests_cant": "the argument ranges over all integers (and kernel types); few values tested", "anchors": ["sopht_mpi/utils/mpi_utils.py: check_valid_ghost_size_and_kernel_support"]}
{"id": "C31", "title": "Overlapped 2D kernel passes cover every inner cell exactly once", "statement": "The interior pass and four boundary passes of the 2D kernels together compute every inner cell at least once, and exactly once if and only if the block has at least 2k columns and (exactly 2k columns or at least 2k rows), k being the kernel support; on blocks with fewer columns accumulating kernels count twice.", "quantifier": "every local size, ghost size >= support, support", "why_tests_cant": "block sizes, ghost sizes and stencil reaches are unbounded; an off-by-one shows only for thin blocks", "anchors": ["sopht_mpi/numeric/eulerian_grid_ops/stencil_ops_2d/diffusion_flux_mpi_2d.py", "sopht_mpi/numeric/eulerian_grid_ops/stencil_ops_2d/advection_flux_mpi_2d.py", "sopht_mpi/numeric/eulerian_grid_ops/stencil_ops_2d/update_vorticity_from_velocity_forcing_mpi_2d.py"]}
{"id": "C32", "title": "Overlapped 3D kernel passes cover every inner cell exactly once", "statement": "The interior pass and six boundary passes of the 3D kernels together compute every inner cell at least once, and exactly once if and only if nx >= 2k and (nx = 2k or (ny >= 2k and (ny = 2k or nz >= 2k))); on thinner blocks accumulating kernels count twice.", "quantifier": "every local size, ghost size, support", "why_tests_cant": "block sizes, ghost sizes and stencil reaches are unbounded; an off-by-one shows only for thin blocks", "anchors": ["sopht_mpi/numeric/eulerian_grid_ops/stencil_ops_3d/diffusion_flux_mpi_3d.py", "sopht_mpi/numeric/eulerian_grid_ops/stencil_ops_3d/advection_flux_mpi_3d.py", "sopht_mpi/numeric/eulerian_grid_ops/stencil_ops_3d/divergence_mpi_3d.py"]}
{"id": "C33", "title": "2D stencil results do not depend on the decomposition", "statement": "Diffusion flux and out-of-plane curl on a distributed 2D field give in every inner cell exactly what a single-rank run on the global field gives, including the zeroed cells next to the physical boundary.", "quantifier": "every field, star stencil, topology, ghost size, message schedule", "why_tests_cant": "for all fields, kernels, pairs of decompositions and message schedules; tests compare one pair on one schedule", "anchors": ["sopht_mpi/numeric/eulerian_grid_ops/stencil_ops_2d/diffusion_flux_mpi_2d.py", "sopht_mpi/numeric/eulerian_grid_ops/stencil_ops_2d/outplane_field_curl_mpi_2d.py"]}
{"id": "C34", "title": "2D accumulating kernels do not depend on the decomposition", "statement": "Advection flux and vorticity update add to every inner cell at least the kernel support away from the physical boundary exactly the increment of a single-rank run.", "quantifier": "every field, stencil, topology, schedule", "why_tests_cant": "for all fields, kernels, pairs of decompositions and message schedules; double counting at pass overlaps shows only for some sizes", "anchors": ["sopht_mpi/numeric/eulerian_grid_ops/stencil_ops_2d/advection_flux_mpi_2d.py", "sopht_mpi/numeric/eulerian_grid_ops/stencil_ops_2d/update_vorticity_from_velocity_forcing_mpi_2d.py"]}
{"id": "C35", "title": "3D stencil results do not depend on the decomposition", "statement": "Diffusion flux, curl, divergence (overwriting) and advection flux, vorticity update (accumulating) on a distributed 3D field agree with a single-rank run as in 2D.", "quantifier": "every field, stencil, topology, schedule", "why_tests_cant": "for all fields, kernels, pairs of decompositions and message schedules; tests compare one pair on one schedule", "anchors": ["sopht_mpi/numeric/eulerian_grid_ops/stencil_ops_3d/"]}
{"id": "C36", "title": "Kernels ignore in-flight ghost data", "statement": "Results in inner cells do not depend on the contents of ghost cells while messages are in flight, including the 3D curl whose interior pass reads ghost columns before they arrive.", "quantifier": "every possible in-flight ghost content", "why_tests_cant": "a race between computation and non-blocking messages: a test sees one of the possible interleavings", "anchors": ["sopht_mpi/numeric/eulerian_grid_ops/stencil_ops_3d/curl_mpi_3d.py", "sopht_mpi/numeric/eulerian_grid_ops/stencil_ops_2d/diffusion_flux_mpi_2d.py"]}
{"id": "C37", "title": "Only physical boundaries are zeroed", "statement": "The boundary zeroing of diffusion flux, curl and divergence touches inner cells only within one cell of a physical boundary, never at an inter-rank boundary.", "quantifier": "every topology and rank", "why_tests_cant": "for every topology and periodicity, which of the ranks' sides are physical boundaries; tests use few topologies", "anchors": ["sopht_mpi/numeric/eulerian_grid_ops/stencil_ops_2d/", "sopht_mpi/numeric/eulerian_grid_ops/stencil_ops_3d/"]}
{"id": "C38", "title": "Diffusion time stepping is decomposition independent over any number of steps", "statement": "For any number of Euler-forward diffusion time steps (scalar or vector), the gathered distributed field equals the single-rank field.", "quantifier": "every initial field, number of steps, step size sequence, topology", "why_tests_cant": "unbounded numbers of steps, each with its own message schedule", "anchors": ["sopht_mpi/numeric/eulerian_grid_ops/stencil_ops_2d/diffusion_timestep_mpi_2d.py", "sopht_mpi/numeric/eulerian_grid_ops/stencil_ops_3d/diffusion_timestep_mpi_3d.py"]}
{"id": "C39", "title": "Advection time step adds the flux of this step only", "statement": "The advection time step resets the flux buffer, so its result does not depend on the buffer's previous content, and equals field plus flux with factor -dt/dx; with ghost size 2 any number of steps agrees with stepping the global field (2D), each component of a vector field is stepped independently (3D).", "quantifier": "every field, buffer content, topology", "why_tests_cant": "the flux buffer carries garbage from arbitrary earlier calls; tests start from a zero buffer", "anchors": ["sopht_mpi/numeric/eulerian_grid_ops/stencil_ops_2d/advection_timestep_mpi_2d.py", "sopht_mpi/numeric/eulerian_grid_ops/stencil_ops_3d/advection_timestep_mpi_3d.py"]}
{"id": "C40", "title": "Laplacian filter applies the requested order", "statement": "The multiplicative 3D Laplacian filter of order p >= 1 subtracts from the field the p-fold application of the product of the one dimensional filters along x, y and z; the convolution filter applies 'field minus p-fold one dimensional filter' along x, then y, then z; both with the filter flux zero in the boundary zone, whatever the buffers held; invalid order, zone width, ghost size, field type or filter type is refused; order 0 subtracts whatever the flux buffer happened to contain.", "quantifier": "every order, field, topology", "why_tests_cant": "the order is an unbounded integer and the result depends on stale buffers only in degenerate cases", "anchors": ["sopht_mpi/numeric/eulerian_grid_ops/stencil_ops_3d/laplacian_filter_mpi_3d.py"]}
{"id": "C41", "title": "Boundary penalisation equals the serial one", "statement": "penalise_field_boundary changes only cells within width of physical boundaries, multiplying by the sine ramp the value of the last cell of the zone, giving what a single-rank run gives when width <= local size; width 0 changes nothing; invalid width is refused.", "quantifier": "every field, width, topology", "why_tests_cant": "for all fields, widths, topologies: the layer may span blocks; tests use one width and few topologies", "anchors": ["sopht_mpi/numeric/eulerian_grid_ops/stencil_ops_2d/penalise_field_boundary_mpi_2d.py", "sopht_mpi/numeric/eulerian_grid_ops/stencil_ops_3d/penalise_field_boundary_mpi_3d.py"]}
{"id": "C42", "title": "2D domain doubling zero pads", "statement": "copy_to_doubled_domain places the global field in the lower half of the doubled distributed domain for any number of slab ranks, odd or even, leaving the rest zero (non-periodic axis, or a periodic axis with an even count; on a periodic axis with an odd count above one a message is left without a receiver, so the call never completes).", "quantifier": "every rank count P, local size, field, either slab axis", "why_tests_cant": "rank counts and grid sizes are unbounded, and odd counts behave differently", "anchors": ["sopht_mpi/numeric/eulerian_grid_ops/poisson_solver_2d/UnboundedPoissonSolverMPI2D.py: MPIDomainDoublingCommunicator2D"]}
{"id": "C43", "title": "2D domain doubling round trips", "statement": "copy_from_doubled_domain after copy_to_doubled_domain restores every rank's inner cells.", "quantifier": "every rank count P, field", "why_tests_cant": "for all fields, rank counts and message schedules", "anchors": ["sopht_mpi/numeric/eulerian_grid_ops/poisson_solver_2d/UnboundedPoissonSolverMPI2D.py"]}
{"id": "C44", "title": "3D domain doubling and odd rank counts", "statement": "The 3D doubling communicator zero-pads and round trips when the number of ranks along each distributed axis is even; with an odd number above one on a non-periodic axis it asks for a rank outside the topology (an MPI error); on a periodic axis with an odd number above one no call raises, but a receive is posted that nobody sends to, so the call never completes.", "quantifier": "every rank count per axis", "why_tests_cant": "tests skip odd rank counts; all counts and schedules are needed", "anchors": ["sopht_mpi/numeric/eulerian_grid_ops/poisson_solver_3d/UnboundedPoissonSolverMPI3D.py: MPIDomainDoublingCommunicator3D"]}
{"id": "C45", "title": "Doubling refuses unsupported decompositions", "statement": "The 2D doubling communicator raises ValueError exactly when more than one axis is distributed; the 3D one exactly when all three axes are.", "quantifier": "every topology", "why_tests_cant": "all topologies; few are tried by tests", "anchors": ["sopht_mpi/numeric/eulerian_grid_ops/poisson_solver_2d/UnboundedPoissonSolverMPI2D.py", "sopht_mpi/numeric/eulerian_grid_ops/poisson_solver_3d/UnboundedPoissonSolverMPI3D.py"]}
{"id": "C46", "title": "Poisson solve only depends on the source", "statement": "The unbounded Poisson solve clears the doubled buffer first, so its result depends only on the right hand side and not on earlier solves.", "quantifier": "every history of solves", "why_tests_cant": "unbounded histories of solves that reuse the same buffers", "anchors": ["sopht_mpi/numeric/eulerian_grid_ops/poisson_solver_2d/UnboundedPoissonSolverMPI2D.py: solve", "sopht_mpi/numeric/eulerian_grid_ops/poisson_solver_3d/UnboundedPoissonSolverMPI3D.py: solve"]}
{"id": "C47", "title": "Eulerian checkpoint round trip", "statement": "Loading a file saved by the MPI IO class restores every inner cell of each registered field on every rank, and the time; the file may be loaded on another decomposition (number of ranks, ghost size) of the same global grid, the order in which ranks write is irrelevant, ghost cells and other arrays are untouched. Origin, spacing or grid size mismatches raise, but only after the arrays were overwritten; a registration that raised leaves the object unable to save.", "quantifier": "every set of fields with distinct names, every pair of decompositions, ghost sizes, write order, field contents", "why_tests_cant": "combinations of registered fields, names, ranks and grid sizes are unbounded", "anchors": ["sopht_mpi/utils/mpi_io.py: MPIIO.save, load, add_as_eulerian_fields_for_io"]}
{"id": "C48", "title": "Lagrangian checkpoint round trip", "statement": "Loading restores each registered Lagrangian grid and field when grid and field names are distinct. In this code two grids with the same field name overwrite each other in the registry (the wrong array is saved, one array is never restored), a vector field with as many nodes as dimensions is taken for a scalar and save raises, a grid without fields is not loaded, a default grid name may replace an explicit one, and loading a rod file does not restore the rod's nodes.", "quantifier": "every registration history", "why_tests_cant": "combinations of grids, fields, names, shapes and ranks are unbounded; collisions happen only for particular combinations", "anchors": ["sopht_mpi/utils/mpi_io.py: add_as_lagrangian_fields_for_io"]}
{"id": "C49", "title": "Loggers write on the chosen ranks only, once and in the requested format", "statement": "A message reaches some output of a rank iff echo_rank is empty or contains the rank and the severity reaches the level; a rank that is not to echo writes nothing whatever handlers are attached; without log files every line reaches the console exactly once however many loggers were made; the level of the logger made last applies to all loggers of the rank; a line ends with the message and mentions rank and level exactly if asked for.", "quantifier": "every rank list, level, severity, format and history of logger constructions", "why_tests_cant": "for all logger configurations, message levels and ranks", "anchors": ["sopht_mpi/utils/mpi_logger.py: MPILogger"]}
{"id": "C50", "title": "Closing all log handlers", "statement": "remove_and_close_all_handlers should leave no handler; in this code it removes while iterating and leaves every second handler attached, so a later logger keeps writing to an old log file and may print every line twice.", "quantifier": "every number of handlers", "why_tests_cant": "tests close a logger with one handler; the defect needs two or more", "anchors": ["sopht_mpi/utils/mpi_logger.py: remove_and_close_all_handlers"]}
{"id": "C51", "title": "Stable time step is the global one", "statement": "compute_stable_timestep returns on every rank the minimum over the diffusion limit and the CFL limit with the maximum velocity over the whole grid: the same number as a single-rank run.", "quantifier": "every velocity field, topology", "why_tests_cant": "for all velocity fields and topologies, in particular a maximum that sits on one rank only", "anchors": ["sopht_mpi/simulator/flow/flow_simulators_mpi_2d.py: compute_stable_timestep", "sopht_mpi/simulator/flow/flow_simulators_mpi_3d.py: compute_stable_timestep"]}
{"id": "C52", "title": "Global maximum of vorticity", "statement": "get_max_vorticity returns on all ranks the maximum over all inner cells of all ranks.", "quantifier": "every field, topology", "why_tests_cant": "for all fields and topologies, in particular ghost values larger than all inner values", "anchors": ["sopht_mpi/simulator/flow/flow_simulators_mpi_2d.py: get_max_vorticity", "sopht_mpi/simulator/flow/flow_simulators_mpi_3d.py: get_max_vorticity"]}
{"id": "C53", "title": "Simulator time is the sum of steps", "statement": "After any sequence of time_step calls (with user code in between that does not touch the time) simulator time equals start time plus the sum of the dts of the calls that did not raise.", "quantifier": "every history", "why_tests_cant": "unbounded histories, with user code in between and steps that raise", "anchors": ["sopht_mpi/simulator/flow/flow_simulators_mpi_2d.py: time_step", "sopht_mpi/simulator/flow/flow_simulators_mpi_3d.py: time_step"]}
{"id": "C54", "title": "Forcing is consumed exactly once", "statement": "After a navier_stokes_with_forcing step that does not raise, the forcing field is zero everywhere, so a force acts in exactly one step; a step with zero forcing does exactly what a step of a simulator without forcing does.", "quantifier": "every history", "why_tests_cant": "unbounded histories, with arbitrary forcing set by user code", "anchors": ["sopht_mpi/simulator/flow/flow_simulators_mpi_2d.py: navier_stokes_with_forcing_timestep", "sopht_mpi/simulator/flow/flow_simulators_mpi_3d.py"]}
{"id": "C55", "title": "Rank-local coordinates agree with the global grid", "statement": "position_field in every local cell (ghosts included) equals the global cell-centre coordinate of that cell.", "quantifier": "every topology, cell", "why_tests_cant": "for every grid size, topology, ghost size and cell", "anchors": ["sopht_mpi/simulator/flow/flow_simulators_mpi_2d.py: init_domain", "sopht_mpi/simulator/flow/flow_simulators_mpi_3d.py: init_domain"]}
{"id": "C56", "title": "Deviation error is the global RMS", "statement": "get_grid_deviation_error_l2_norm returns on all ranks the root mean square over all nodes of the position mismatch.", "quantifier": "every node distribution", "why_tests_cant": "for every distribution of nodes over ranks, also ranks without nodes", "anchors": ["sopht_mpi/simulator/immersed_body/immersed_body_flow_interaction_mpi.py: get_grid_deviation_error_l2_norm"]}
{"id": "C57", "title": "Configuration checks of the flow simulators", "statement": "2D: the constructor raises ValueError exactly for an unsupported flow type or a passive scalar with free stream, RuntimeError exactly for a rank distribution that does not divide the grid, and otherwise returns; but it swallows the ValueErrors of the kernel factories, and then every time_step raises AttributeError without advancing the time. 3D: the constructor succeeds exactly for a supported flow type, a rank distribution that divides the grid, and (passive) ghost size at least 2 or (Navier-Stokes) ghost size at least 1, an undistributed axis, a non-negative integer penalty width and a valid filter; it raises RuntimeError for the distribution and ValueError for all else, and a Navier-Stokes time_step without free stream velocity raises TypeError and changes nothing.", "quantifier": "every configuration (flow type string, sizes, topology, ghost size, width, filter)", "why_tests_cant": "the configuration space (strings, sizes, widths, topologies) is infinite and the constructor swallows some exceptions, so that a bad configuration shows only at the first step", "anchors": ["sopht_mpi/simulator/flow/flow_simulators_mpi_2d.py: __init__", "sopht_mpi/simulator/flow/flow_simulators_mpi_3d.py: __init__"]}
{"id": "C58", "title": "Divergence norm is the global norm", "statement": "get_vorticity_divergence_l2_norm returns on every rank the l2 norm, over all cells of the global grid and times dx^1.5, of the divergence of the global vorticity (zero in outermost cells), and changes no inner cell of the vorticity.", "quantifier": "every field, topology", "why_tests_cant": "for all fields, topologies and message schedules", "anchors": ["sopht_mpi/simulator/flow/flow_simulators_mpi_3d.py: get_vorticity_divergence_l2_norm"]}
{"id": "C59", "title": "Peskin kernel interpolates linear fields exactly", "statement": "With the Peskin kernel a field that is affine in the cell-centre coordinates is interpolated exactly at every node position, in 2D and 3D.", "quantifier": "all node positions, grid spacings, affine fields, ranks", "why_tests_cant": "holds for a continuum of positions and relies on cancellation of square roots between four branches", "anchors": ["sopht_mpi/numeric/immersed_boundary_ops/EulerianLagrangianGridCommunicatorMPI2D.py:generate_peskin_interpolation_weights_kernel_2d", "sopht_mpi/numeric/immersed_boundary_ops/EulerianLagrangianGridCommunicatorMPI3D.py:generate_peskin_interpolation_weights_kernel_3d"]}
{"id": "C60", "title": "Interpolated values are bounded by the surrounding values", "statement": "With either kernel the value interpolated at a node lies between the smallest and largest field value in the cells of its support window (weights are non-negative and sum to one).", "quantifier": "all node positions, fields, grid spacings and ranks", "why_tests_cant": "a statement about all real positions including cell boundaries where the Peskin branches meet", "anchors": ["sopht_mpi/numeric/immersed_boundary_ops/EulerianLagrangianGridCommunicatorMPI2D.py:generate_cosine_interpolation_weights_kernel_2d", "sopht_mpi/numeric/immersed_boundary_ops/EulerianLagrangianGridCommunicatorMPI3D.py:generate_peskin_interpolation_weights_kernel_3d"]}
{"id": "C61", "title": "Physical ghost cells after kernels with a thick ghost layer", "statement": "A stencil kernel changes no ghost cell when the ghost size equals its support. With a thicker ghost layer (the simulators use 2 with support 1) the 2D kernels also compute cells of the ghost rows, in the outermost columns of each block only, so the physical ghost cells of an accumulated field depend on the decomposition; the 3D kernels likewise compute ghost cells next to the outermost columns and rows of each block.", "quantifier": "every local size, ghost size, support; witness topology for the dependence", "why_tests_cant": "tests compare inner cells only, and the dependence appears only in ghost cells and for particular topologies", "anchors": ["sopht_mpi/numeric/eulerian_grid_ops/stencil_ops_2d/update_vorticity_from_velocity_forcing_mpi_2d.py: update_vorticity_from_velocity_forcing_pyst_mpi_kernel_2d"]}
{"id": "C62", "title": "Green's function does not depend on the decomposition", "statement": "The Green's function table assembled from all ranks of the doubled domain is the symmetric free-space kernel of the cell distance, regularised only at the single cell of distance zero, whatever the number of ranks.", "quantifier": "every grid size, rank count and spacing", "why_tests_cant": "the tests compare solves on the few rank counts the CI runs with", "anchors": ["sopht_mpi/numeric/eulerian_grid_ops/poisson_solver_2d/UnboundedPoissonSolverMPI2D.py: construct_fourier_greens_function_field", "sopht_mpi/numeric/eulerian_grid_ops/poisson_solver_3d/UnboundedPoissonSolverMPI3D.py: construct_fourier_greens_function_field"]}
{"id": "C63", "title": "The unbounded Poisson solve has no periodic images", "statement": "On every inner cell the solution equals the direct free-space sum of kernel times source over all cells of the actual grid, with no contribution from periodic images introduced by the FFT; it is linear in the source and a point source gives the kernel; the solve is reciprocal (symmetric as an operator).", "quantifier": "every grid size, rank count, source field and cell", "why_tests_cant": "tests compare one manufactured field with a serial solver", "anchors": ["sopht_mpi/numeric/eulerian_grid_ops/poisson_solver_2d/UnboundedPoissonSolverMPI2D.py: solve", "sopht_mpi/numeric/eulerian_grid_ops/poisson_solver_3d/UnboundedPoissonSolverMPI3D.py: solve"]}
{"id": "C64", "title": "XDMF description does not overwrite the data file", "statement": "save writes the XDMF description to a name different from the HDF5 file exactly when the file name contains '.h5'; otherwise the description is written over the HDF5 file.", "quantifier": "every file name and grid name", "why_tests_cant": "quantifies over all file names", "anchors": ["sopht_mpi/utils/mpi_io.py: generate_xdmf_eulerian, generate_xdmf_lagrangian"]}
{"id": "C65", "title": "A 2D simulation does not depend on the decomposition", "statement": "Construct a 2D simulator (passive_scalar, navier_stokes or navier_stokes_with_forcing), fill the primary field and the velocity from position_field, and iterate time_step any number of times, with given time steps or those of compute_stable_timestep, a free stream and a forcing field per step. No call raises, and the time and the values in every cell of the global grid are those of the run on a single rank, whatever the rank distribution and the timing of the messages.", "quantifier": "every grid, admissible rank distribution, flow type, number of steps, forcing, free stream, initial condition and message schedule", "why_tests_cant": "tests run a few steps of one case on the ranks at hand; the claim is about all decompositions, all schedules and unboundedly many steps", "anchors": ["sopht_mpi/simulator/flow/flow_simulators_mpi_2d.py: UnboundedFlowSimulator2D, time_step, compute_stable_timestep"]}
{"id": "C66", "title": "A 3D simulation does not depend on the decomposition", "statement": "Construct a 3D simulator (passive_scalar, passive_vector, navier_stokes or navier_stokes_with_forcing, with or without vorticity filter and free stream), fill the primary fields and the velocity from position_field, and iterate time_step any number of times, with given time steps or those of compute_stable_timestep, a free stream and a forcing field per step. No call raises, and the time and the values of scalar, vector, vorticity and velocity in every cell of the global grid are those of the run on a single rank, whatever the rank distribution and the timing of the messages.", "quantifier": "every grid, admissible rank distribution (for Navier-Stokes: one or an even number of ranks per axis), flow type, filter, number of steps, forcing, free stream, initial condition and message schedule", "why_tests_cant": "tests run a few steps of one case on the ranks at hand; the claim is about all decompositions, all schedules and unboundedly many steps", "anchors": ["sopht_mpi/simulator/flow/flow_simulators_mpi_3d.py: UnboundedFlowSimulator3D, time_step, compute_stable_timestep"]}
{"id": "C67", "title": "Which rank distributions a 3D Navier-Stokes simulation can run on", "statement": "A 3D Navier-Stokes simulator (with or without forcing) completes time_step exactly if along every axis there is one rank or an even number of ranks. On any other distribution the constructor still succeeds, but every time_step raises an MPI error and the time does not advance.", "quantifier": "every grid, rank distribution, penalty width fitting the blocks, state, time step and message schedule", "why_tests_cant": "tests run on the process counts of the CI (powers of two)", "anchors": ["sopht_mpi/simulator/flow/flow_simulators_mpi_3d.py: time_step, compute_flow_velocity", "sopht_mpi/numeric/eulerian_grid_ops/poisson_solver_3d/UnboundedPoissonSolverMPI3D.py: MPIDomainDoublingCommunicator3D"]}
{"id": "C68", "title": "A 2D flow with immersed bodies does not depend on the decomposition", "statement": "Build a 2D simulator with forcing and any number of interactors for bodies inside the domain, and run any driver: calls of the interactors, compute_flow_forces_and_torques, interactor time steps, flow time steps, compute_stable_timestep, deviation norms, maximum vorticity, printing, each decision depending on anything returned before. No call raises; the time, everything printed, the forces on every node of every body and vorticity, velocity and forcing in every cell of the grid are those of the run on a single grid, whatever the rank distribution, the master ranks and the timing of the messages - as long as every migration of nodes between ranks changes the number of nodes of some rank (always so on one rank and for bodies at rest), and the ghost cells are up to date if auto_ghosting is off.", "quantifier": "every grid, admissible rank distribution, set of bodies, motion of the nodes, master rank, driver program, initial condition and message schedule", "why_tests_cant": "tests run one body for a few steps on the ranks at hand; the claim ranges over all driver programs, decompositions and schedules", "anchors": ["sopht_mpi/simulator/immersed_body/immersed_body_flow_interaction_mpi.py: ImmersedBodyFlowInteractionMPI", "sopht_mpi/numeric/immersed_boundary_ops/VirtualBoundaryForcingMPI.py: VirtualBoundaryForcingMPI", "sopht_mpi/simulator/flow/flow_simulators_mpi_2d.py: UnboundedFlowSimulator2D"]}
{"id": "C69", "title": "Which interactors can be constructed", "statement": "For a body whose nodes are inside the domain the constructor of an interactor succeeds exactly if the interpolation kernel width is 2 (the default) and the flow's ghost exchange communicator has a ghost size of at least 2, on every rank distribution.", "quantifier": "every grid, rank distribution, body inside the domain, kernel width and ghost size", "why_tests_cant": "tests try a few widths on one grid", "anchors": ["sopht_mpi/simulator/immersed_body/immersed_body_flow_interaction_mpi.py: __init__", "sopht_mpi/numeric/immersed_boundary_ops/VirtualBoundaryForcingMPI.py: __init__", "sopht_mpi/numeric/immersed_boundary_ops/EulerianLagrangianGridCommunicatorMPI2D.py: __init__"]}
{"id": "C70", "title": "A 3D flow with immersed bodies does not depend on the decomposition", "statement": "Build a 3D simulator with forcing and any number of interactors for bodies inside the domain, and run any driver: calls of the interactors, compute_flow_forces_and_torques, interactor time steps, flow time steps, compute_stable_timestep, deviation norms, maximum vorticity, divergence norm, printing, each decision depending on anything returned before. No call raises; the time, everything printed, the forces on every node of every body and vorticity, velocity and forcing in every cell of the grid are those of the run on a single grid, whatever the rank distribution (along every axis one rank or an even number), the master ranks and the timing of the messages - as long as every migration of nodes between ranks changes the number of nodes of some rank, and the ghost cells are up to date if auto_ghosting is off.", "quantifier": "every grid, admissible rank distribution, ghost size, set of bodies, motion of the nodes, master rank, driver program, initial condition and message schedule", "why_tests_cant": "tests run one body for a few steps on the ranks at hand; the claim ranges over all driver programs, decompositions and schedules", "anchors": ["sopht_mpi/simulator/immersed_body/immersed_body_flow_interaction_mpi.py: ImmersedBodyFlowInteractionMPI", "sopht_mpi/numeric/immersed_boundary_ops/VirtualBoundaryForcingMPI.py: VirtualBoundaryForcingMPI", "sopht_mpi/simulator/flow/flow_simulators_mpi_3d.py: UnboundedFlowSimulator3D"]}
{"id": "C71", "title": "A fluid at rest stays at rest, a uniform stream stays uniform", "statement": "Construct a 2D or 3D simulator and call time_step any number of times with any (also computed) time steps and any free stream velocities, with zero forcing: no call raises, the vorticity or transported field is zero in every cell of every rank at the end, and the velocity in every cell is the free stream of the last step (zero for a simulator without free stream, or one that only transports), whatever the decomposition and the message timing.", "quantifier": "every grid, admissible rank distribution, flow type, filter setting, number of steps, time steps, free streams and message schedule", "why_tests_cant": "tests start from vortices or check one step; the claim is an invariant of all histories", "anchors": ["sopht_mpi/simulator/flow/flow_simulators_mpi_2d.py: UnboundedFlowSimulator2D", "sopht_mpi/simulator/flow/flow_simulators_mpi_3d.py: UnboundedFlowSimulator3D"]}
{"id": "C72", "title": "Scatter and gather cannot deadlock and give the same result under every schedule", "statement": "When all ranks call scatter_global_scalar_field, scatter_global_vector_field, gather_local_scalar_field or gather_local_vector_field (2D or 3D), or the Lagrangian scatter_global_field or gather_local_field, every rank returns, in whatever order the ranks proceed, whichever messages MPI buffers and in whatever order the master visits the other ranks; at the end no message is left over, a gathered global field holds in every cell (for every node) the value of its owner, a scattered local field the part of the master's field that the rank owns, ghost cells and all other arrays are unchanged.", "quantifier": "every grid, rank distribution, ghost size, master rank, node mapping, field contents, interleaving of the ranks and buffering decision", "why_tests_cant": "a test sees the interleavings and the buffering of one MPI library on one machine", "anchors": ["sopht_mpi/utils/mpi_utils_2d.py: MPIFieldCommunicator2D, MPILagrangianFieldCommunicator2D", "sopht_mpi/utils/mpi_utils_3d.py: MPIFieldCommunicator3D, MPILagrangianFieldCommunicator3D"]}
{"id": "C73", "title": "The communication of the virtual boundary forcing cannot deadlock", "statement": "In any history of compute_interaction_force_on_lag_grid and time_step calls made by all ranks (nodes may move between ranks in any way), every rank decides by itself - from the mapping it received and the flag it was returned - which messages to send and receive; still all ranks take the same branch, every call returns on every rank under every interleaving and buffering, and afterwards the ranks together hold the state of the sequential description; so the force law of C18 holds for what the master gathers.", "quantifier": "every set of ranks, master, node mapping history, coefficients, flow velocities, interleaving and buffering decision", "why_tests_cant": "a deadlock shows up only for particular migrations of nodes and particular timing", "anchors": ["sopht_mpi/numeric/immersed_boundary_ops/VirtualBoundaryForcingMPI.py: VirtualBoundaryForcingMPI.update_buffers, compute_interaction_force_on_lag_grid", "sopht_mpi/utils/mpi_utils_2d.py: MPILagrangianFieldCommunicator2D"]}
{"id": "C74", "title": "By default an interactor uses the cosine delta function on the simulator's own grid", "statement": "An interactor built without eul_grid_coord_shift and interp_kernel_width interpolates to a node the sum over the cells of flow velocity times the product of one-dimensional cosine delta functions of support two cells, evaluated at the distance between the cell's entry in the simulator's position_field and the node, times dx^dim; spreading adds to every cell the force times the same product. In particular the default shift is the half cell that the simulator's cell centres have.", "quantifier": "every 2D and 3D grid, rank distribution, ghost size of at least 2, node position in the block of a rank, velocity and force values", "why_tests_cant": "tests compare a few nodes with a tolerance; a shift by half a cell changes results only slightly", "anchors": ["sopht_mpi/numeric/immersed_boundary_ops/VirtualBoundaryForcingMPI.py: VirtualBoundaryForcingMPI.__init__", "sopht_mpi/numeric/immersed_boundary_ops/EulerianLagrangianGridCommunicatorMPI2D.py", "sopht_mpi/numeric/immersed_boundary_ops/EulerianLagrangianGridCommunicatorMPI3D.py", "sopht_mpi/simulator/flow/flow_simulators_mpi_2d.py: UnboundedFlowSimulator2D"]}
{"id": "C75", "title": "Restarting a simulation from a checkpoint continues the run", "statement": "Vorticity (or the passive field) and velocity of a running simulation are saved with MPIIO.save(time=flow_sim.time). A newly constructed simulator on the same grid, on any rank distribution, whose fields were set up in any way, loads the file with flow_sim.time = io.load(...) and goes on. Nothing raises, and at every later point vorticity and velocity in every inner cell and the time are those of the run that was never interrupted - provided the penalty zone is at least 4 cells wide (in 3D: 3 cells plus the filter order) and the grid a few cells larger than that; for the passive flow types provided the new simulator was set up as the first one. With the default penalty width of 2 cells this fails: ghost cells beyond the domain sides are state that the checkpoint does not hold.", "quantifier": "every flow type, grid, pair of rank distributions, initial condition, number of steps before and after the checkpoint, order in which ranks write the file, schedule of messages", "why_tests_cant": "the history before the checkpoint and the pair of decompositions are unbounded; tests only check a save/load round trip of a field", "anchors": ["sopht_mpi/utils/mpi_io.py: MPIIO.save, MPIIO.load", "sopht_mpi/simulator/flow/flow_simulators_mpi_2d.py: UnboundedFlowSimulator2D", "sopht_mpi/simulator/flow/flow_simulators_mpi_3d.py: UnboundedFlowSimulator3D", "examples/3d_examples/FlowPastFreelyRotatingRodCase/flow_past_freely_rotating_rod_case.py"]}
{"id": "C76", "title": "Immersed-boundary interaction conserves momentum and power between body and fluid", "statement": "After an interaction call of an immersed body flow interactor, the integral over the whole grid (dx^d times the sum over the inner cells of all ranks) of each component of the Eulerian forcing field equals the sum of that component of the interaction force over all Lagrangian nodes, plus what the forcing field already held when the interactor does not reset it (several bodies sharing one forcing field). The power the forcing does on the flow, dx^d times the sum of forcing times velocity, equals the sum over the nodes of force times the flow velocity at the node (body velocity plus velocity mismatch), plus what the forcing did before. No force is lost or counted twice at rank boundaries, in ghost cells or for nodes near a block boundary.", "quantifier": "2D and 3D, every grid, rank distribution, body set, node positions inside the domain, driver program before the call, every schedule of messages", "why_tests_cant": "tests compare a few fixed node positions and rank counts; the balance must hold for every position of every node relative to every block boundary, after every history", "anchors": ["sopht_mpi/simulator/immersed_body/immersed_body_flow_interaction_mpi.py: ImmersedBodyFlowInteractionMPI", "sopht_mpi/numeric/immersed_boundary_ops/VirtualBoundaryForcingMPI.py: VirtualBoundaryForcingMPI", "sopht_mpi/numeric/immersed_boundary_ops/EulerianLagrangianGridCommunicatorMPI2D.py: EulerianLagrangianGridCommunicatorMPI2D", "sopht_mpi/numeric/immersed_boundary_ops/EulerianLagrangianGridCommunicatorMPI3D.py: EulerianLagrangianGridCommunicatorMPI3D"]}
{"id": "C77", "title": "compute_stable_timestep obeys the CFL and the diffusion limit in every cell of every rank", "statement": "For any velocity field the time step returned on every rank is positive, the same on all ranks, satisfies dt * (sum of |velocity components|) <= CFL * dx in every inner cell of every rank and dt * 2 d nu <= 0.9 dx^2 (d the dimension), and with dt_prefac = 1 one of the limits is attained (up to the tolerance added to the velocity magnitude), so the step is not needlessly small.", "quantifier": "2D and 3D, every grid, rank distribution, velocity field, viscosity, CFL number and prefactor in (0,1]", "why_tests_cant": "the maximum runs over all cells of all ranks and tests only evaluate fixed fields on one decomposition", "anchors": ["sopht_mpi/simulator/flow/flow_simulators_mpi_2d.py: UnboundedFlowSimulator2D.compute_stable_timestep", "sopht_mpi/simulator/flow/flow_simulators_mpi_3d.py: UnboundedFlowSimulator3D.compute_stable_timestep"]}
{"id": "C78", "title": "Forcing with assume_data_locality=True gives the same physics as the default mode", "statement": "With assume_data_locality=True each rank holds the Lagrangian nodes inside its own block and nothing is scattered or gathered. As long as every node stays in the block of the rank that holds it, any history of interaction calls, time steps and flow changes gives every node the same position mismatch, velocity mismatch and force, and every Eulerian cell the same forcing, as the default mode with all nodes on the master, for any interleaving of the ranks' nodes in the numbering of the whole body. The force law (stiffness times accumulated velocity mismatch plus damping times the current one) holds per rank even without that. The position deviation norm reported is not the same: it divides by the master's node count only.", "quantifier": "2D and 3D, every number of ranks, distribution of nodes over ranks, numbering of the nodes, history of calls, order in which the master visits the slaves", "why_tests_cant": "histories and node distributions are unbounded; the tests only run the mode on one call", "anchors": ["sopht_mpi/numeric/immersed_boundary_ops/VirtualBoundaryForcingMPI.py: VirtualBoundaryForcingMPI (assume_data_locality)", "sopht_mpi/simulator/immersed_body/immersed_body_flow_interaction_mpi.py: ImmersedBodyFlowInteractionMPI"]}
{"id": "C79", "title": "Brinkmann penalisation and characteristic-function kernels need no ghost exchange", "statement": "The MPI versions of the Brinkmann penalisation kernel (scalar and vector) and of the level-set characteristic function kernel give in every inner cell of every rank what the serial kernel gives on the undivided grid in that cell, whatever the ghost cells hold; where the ghost cells of the inputs are exchanged, the ghost cells of the result are already what an exchange of the result would give.", "quantifier": "2D and 3D, every grid, rank distribution, ghost size, field values, pointwise function of the cell values, schedule of the exchanges", "why_tests_cant": "ranges over all decompositions and field values; tests use one decomposition and random fields with a tolerance", "anchors": ["sopht_mpi/numeric/eulerian_grid_ops/stencil_ops_2d/brinkmann_penalise_mpi_2d.py", "sopht_mpi/numeric/eulerian_grid_ops/stencil_ops_3d/brinkmann_penalise_mpi_3d.py", "sopht_mpi/numeric/eulerian_grid_ops/stencil_ops_2d/char_func_from_level_set_mpi_2d.py", "sopht_mpi/numeric/eulerian_grid_ops/stencil_ops_3d/char_func_from_level_set_mpi_3d.py"]}
{"id": "C80", "title": "Topology chosen when rank_distribution is not given, and the rank counts on which a simulator works", "statement": "A rank_distribution without zeros is used as it is if its product is the number of ranks (otherwise MPI raises). By default a 2D domain is cut into slabs along y only, and a 3D domain is not cut along x. With the default a 2D simulator can be constructed on n ranks exactly if n divides the number of rows (and the flow type is valid) and then it has all kernels a time step needs; in 3D the default topology is never what a simulator refuses, but on an odd number of ranks above one no 3D Navier-Stokes simulator can take a step, whatever the distribution, while on a power of two every distribution works whose blocks are at least as wide as the penalty zone.", "quantifier": "every number of ranks, rank_distribution argument, grid size, flow type and result MPI_Dims_create may return", "why_tests_cant": "tests run on one or a few fixed rank counts; the claim is about all rank counts and about what the MPI library is free to choose", "anchors": ["sopht_mpi/utils/mpi_utils_2d.py: MPIConstruct2D.__init__", "sopht_mpi/utils/mpi_utils_3d.py: MPIConstruct3D.__init__", "sopht_mpi/simulator/flow/flow_simulators_mpi_3d.py: UnboundedFlowSimulator3D"]}
{"id": "C81", "title": "The XDMF files describe the saved HDF5 file", "statement": "Whenever MPIIO.save writes its HDF5 file, it also generates the XDMF files without error on every rank. The Eulerian file lists every Eulerian dataset exactly once, under its path, with the dimensions it has (without the leading axis of length one in 3D); the description which the master of a Lagrangian grid generates lists positions, connection and every field of that grid exactly once with the shapes they have in the file. If all Lagrangian grids have one master, no grid is called 'eulerian' and the file name contains '.h5', then after the save each XDMF file holds the description of its own grid, whatever the order in which the ranks write. Otherwise not: with two masters every master rewrites the files of all grids from its own (locally empty) arrays, so a file can describe a wrong number of nodes; a grid called 'eulerian' replaces the Eulerian description; and in 2D origin and spacing have three values but declare two.", "quantifier": "every sequence of registrations that save accepts, field types, grid shapes, file name, and order of the ranks' file writes", "why_tests_cant": "a race between ranks and all combinations of registered grids and fields; the tests compare no XDMF file", "anchors": ["sopht_mpi/utils/mpi_io.py: MPIIO.generate_xdmf_eulerian", "sopht_mpi/utils/mpi_io.py: MPIIO.generate_xdmf_lagrangian", "sopht_mpi/utils/mpi_io.py: MPIIO.save"]}
{"id": "C82", "title": "A 2D simulation with ranks at their own speed neither hangs nor races", "statement": "Construct a 2D simulator, initialise vorticity and velocity from the coordinates and run any number of time steps (given or stable dt, any flow type, with or without free stream and forcing), with nothing but the simulator's own messages and collective operations to synchronise the ranks, so that a rank may be several exchanges ahead of another. Then no execution gets stuck, none runs forever, and when all ranks have returned every inner cell of every rank holds the values of the run on the undivided grid, whatever the speed of the ranks and whether MPI buffers messages or not.", "quantifier": "every grid, rank distribution the constructor accepts and blocks wide enough for the penalty zone, flow type, kernels, sequence of time steps, interleaving of the ranks and of message events", "why_tests_cant": "the interleavings of ranks and messages cannot be enumerated or forced by a test", "anchors": ["sopht_mpi/simulator/flow/flow_simulators_mpi_2d.py: UnboundedFlowSimulator2D.time_step", "sopht_mpi/simulator/flow/flow_simulators_mpi_2d.py: UnboundedFlowSimulator2D.compute_stable_timestep", "sopht_mpi/utils/mpi_utils_2d.py: MPIGhostCommunicator2D.exchange_scalar_field_init", "sopht_mpi/utils/mpi_utils_2d.py: MPIGhostCommunicator2D.exchange_finalise", "sopht_mpi/numeric/eulerian_grid_ops/poisson_solver_2d/UnboundedPoissonSolverMPI2D.py: UnboundedPoissonSolverMPI2D.solve"]}
{"id": "C83", "title": "A 3D simulation with ranks at their own speed neither hangs nor races", "statement": "Construct a 3D simulator, initialise the fields from the coordinates and run any number of time steps (given or stable dt, any flow type, with or without free stream, forcing and vorticity filtering of any order), with nothing but the simulator's own messages and collective operations to synchronise the ranks, so that a rank may be several exchanges ahead of another. Then no execution gets stuck, none runs forever, and when all ranks have returned every inner cell of every rank holds the values of the run on the undivided grid, whatever the speed of the ranks and whether MPI buffers messages or not.", "quantifier": "every grid, rank distribution the constructor accepts and blocks wide enough for the penalty zone, flow type, kernels, sequence of time steps, interleaving of the ranks and of message events", "why_tests_cant": "the interleavings of ranks and messages cannot be enumerated or forced by a test", "anchors": ["sopht_mpi/simulator/flow/flow_simulators_mpi_3d.py: UnboundedFlowSimulator3D.time_step", "sopht_mpi/simulator/flow/flow_simulators_mpi_3d.py: UnboundedFlowSimulator3D.compute_stable_timestep", "sopht_mpi/utils/mpi_utils_3d.py: MPIGhostCommunicator3D.exchange_scalar_field_init", "sopht_mpi/utils/mpi_utils_3d.py: MPIGhostCommunicator3D.exchange_finalise", "sopht_mpi/numeric/eulerian_grid_ops/poisson_solver_3d/UnboundedPoissonSolverMPI3D.py: UnboundedPoissonSolverMPI3D.solve", "sopht_mpi/numeric/eulerian_grid_ops/stencil_ops_3d/laplacian_filter_mpi_3d.py: gen_laplacian_filter_mpi_kernel_3d"]}
{"id": "C84", "title": "Restarting a flow with immersed bodies from a checkpoint continues the run", "statement": "A driver runs a flow with immersed bodies; right after a flow time step, with every body's last time step followed by an interaction, it saves the flow fields and, for each interactor, the positions of the forcing grid and the global mismatch fields. A new simulator and new interactors, on any distribution of ranks over the same grid and with any master ranks, load the files, map the nodes and scatter the mismatch fields. Then a driver that interacts with each body before advancing it goes on as if there had been no interruption: same time, same output, same vorticity, velocity and forcing in every cell, same forces on every node of every body interacted with. Nothing raises, provided the penalty zone is wide enough (or C122) and the number of nodes differs from the dimension (otherwise the checkpoint cannot be registered). A driver that advances a body first after the restart uses the velocity mismatch of the interaction before the last instead of the current one, and the interactors' own clocks are not restored.", "quantifier": "every grid, both rank distributions, all bodies and driver programs that branch on what they query, all message schedules, all initial contents of the new objects", "why_tests_cant": "it compares two unbounded runs for all drivers, decompositions and schedules; the stale velocity mismatch shows up only for particular orders of calls", "anchors": ["examples/3d_examples/FlowPastFreelyRotatingRodCase/flow_past_freely_rotating_rod_case.py: flow_past_rod_case", "sopht_mpi/utils/mpi_io.py: MPIIO.save", "sopht_mpi/utils/mpi_io.py: MPIIO.load", "sopht_mpi/numeric/immersed_boundary_ops/VirtualBoundaryForcingMPI.py: VirtualBoundaryForcingMPI.compute_lag_grid_velocity_mismatch_field"]}
{"id": "C85", "title": "Calls of virtual boundary forcing with ranks at their own speed neither hang nor race", "statement": "Ranks make the same sequence of interaction and time-step calls of one immersed body, each at its own speed, with nothing but the messages of the calls to synchronise them; each rank decides from its own copy of the node mapping and of the reduced flag which messages it sends and awaits, and only the master needs the true positions and velocities. Then no execution gets stuck, none runs forever, and when all ranks have returned they hold the state of the lock-step run: in particular the master holds on every node the penalty force of C18. The reduction of the flags is needed: if the master went by its own flag and another rank with nodes by its own, and only the second were set, no execution would ever end.", "quantifier": "every number of ranks, mapping of nodes to ranks, sequence of calls, positions and velocities, interleaving of ranks and message events, with buffered or unbuffered sends", "why_tests_cant": "the interleavings of ranks and messages cannot be enumerated or forced by a test, and the partners of a rank depend on the data", "anchors": ["sopht_mpi/numeric/immersed_boundary_ops/VirtualBoundaryForcingMPI.py: VirtualBoundaryForcingMPI.compute_interaction_force_on_lag_grid", "sopht_mpi/numeric/immersed_boundary_ops/VirtualBoundaryForcingMPI.py: VirtualBoundaryForcingMPI.update_buffers", "sopht_mpi/utils/mpi_utils_2d.py: MPILagrangianFieldCommunicator2D", "sopht_mpi/utils/mpi_utils_3d.py: MPILagrangianFieldCommunicator3D"]}
{"id": "C86", "title": "2D flow with immersed bodies: ranks at their own speed neither hang nor race", "statement": "Every rank runs a driver of a 2D flow with forcing and immersed bodies (interactions, forces on a body, time steps of bodies and flow, stable time step, deviation, maximal vorticity, ghost exchange, printing; what is called next may depend on everything the driver was told), each at its own speed, with nothing but the messages of the calls to synchronise the ranks; each rank chooses its partners from its own data, and a rank which is not the master of a body need not know the positions, velocities or forces of that body. Then no execution gets stuck, none runs forever, and when all ranks have returned, every inner cell of every rank holds vorticity, velocity and forcing of the run on the global grid, the master of each body its forces, and the printing rank has printed the same numbers.", "quantifier": "every decomposition the simulator accepts, number of bodies and nodes, driver whose bodies stay inside, initial fields, interleaving of ranks and message events, with buffered or unbuffered sends", "why_tests_cant": "the interleavings of ranks and messages cannot be enumerated or forced by a test, and which messages are sent depends on the data", "anchors": ["sopht_mpi/simulator/flow/flow_simulators_mpi_2d.py: UnboundedFlowSimulator2D", "sopht_mpi/simulator/immersed_body/immersed_body_flow_interaction_mpi.py: ImmersedBodyFlowInteractionMPI", "sopht_mpi/numeric/immersed_boundary_ops/VirtualBoundaryForcingMPI.py: VirtualBoundaryForcingMPI", "sopht_mpi/numeric/immersed_boundary_ops/EulerianLagrangianGridCommunicatorMPI2D.py: EulerianLagrangianGridCommunicatorMPI2D"]}
{"id": "C87", "title": "3D flow with immersed bodies: ranks at their own speed neither hang nor race", "statement": "Every rank runs a driver of a 3D flow with forcing and immersed bodies (interactions, forces on a body, time steps of bodies and flow, stable time step, deviation, maximal vorticity, norm of the divergence of the vorticity, ghost exchange, printing; what is called next may depend on everything the driver was told), each at its own speed, with nothing but the messages of the calls to synchronise the ranks; each rank chooses its partners from its own data, and a rank which is not the master of a body need not know the positions, velocities or forces of that body. Then no execution gets stuck, none runs forever, and when all ranks have returned, every inner cell of every rank holds vorticity, velocity and forcing of the run on the global grid, the master of each body its forces, and the printing rank has printed the same numbers.", "quantifier": "every decomposition the simulator accepts, number of bodies and nodes, driver whose bodies stay inside, initial fields, interleaving of ranks and message events, with buffered or unbuffered sends", "why_tests_cant": "the interleavings of ranks and messages cannot be enumerated or forced by a test, and which messages are sent depends on the data", "anchors": ["sopht_mpi/simulator/flow/flow_simulators_mpi_3d.py: UnboundedFlowSimulator3D", "sopht_mpi/simulator/immersed_body/immersed_body_flow_interaction_mpi.py: ImmersedBodyFlowInteractionMPI", "sopht_mpi/numeric/immersed_boundary_ops/VirtualBoundaryForcingMPI.py: VirtualBoundaryForcingMPI", "sopht_mpi/numeric/immersed_boundary_ops/EulerianLagrangianGridCommunicatorMPI3D.py: EulerianLagrangianGridCommunicatorMPI3D"]}
{"id": "C88", "title": "The deviation error asked of one rank only", "statement": "get_grid_deviation_error_l2_norm(compute_global=False), after any history of interactions and time steps: on the master rank of the body it returns the square root of (sum of the squared position mismatches of the nodes this rank holds, divided by the number of all nodes of the body). On every other rank it does not return a number: the forcing grid there is empty, so the norm is divided by zero, giving infinity if one of the rank's nodes has deviated and not-a-number otherwise (negative). If all nodes are on the master it equals the global deviation error.", "quantifier": "every number of ranks and nodes, distribution of the nodes, history of interactions and steps, rank", "why_tests_cant": "the value depends on which rank asks and on the whole history of the mismatch", "anchors": ["sopht_mpi/simulator/immersed_body/immersed_body_flow_interaction_mpi.py: ImmersedBodyFlowInteractionMPI.get_grid_deviation_error_l2_norm", "sopht_mpi/simulator/immersed_body/immersed_body_forcing_grid.py: EmptyForcingGrid"]}
{"id": "C89", "title": "Figures of the MPI plotter", "statement": "An MPIPlotter2D is constructed and used (contourf, scatter, plot, savefig, clearfig, ax.set_title) by all ranks alike. Then no rank hangs; the master, and only the master, writes one file per savefig, which shows exactly what was drawn since the last clearfig: each contour with the coordinates and values of all cells of the global grid at the time of the call, scatter and line data as the master gave them. Negative: clearfig raises AttributeError on every rank if contourf was never called; the title given at construction is gone after the first clearfig; of two contours in one frame the first one's colour bar stays in all later files (with one contour per frame none does).", "quantifier": "every decomposition, ghost size, master rank, sequence of calls and arguments, schedule of the ranks, buffered or unbuffered sends", "why_tests_cant": "the calls, the data and the interleavings of the ranks are arbitrary", "anchors": ["sopht_mpi/utils/mpi_utils_2d.py: MPIPlotter2D"]}
{"id": "C90", "title": "Total vorticity is conserved", "statement": "While neither the vorticity (passive scalar, passive vector) nor the forcing can have reached the sides or the penalty zone (three cells per step, in 3D plus the order of the filter), the sum of each component over the inner cells of all ranks is the same after any number of time steps as at the start.", "quantifier": "every grid, decomposition, flow type, number of steps, time step (given or stable), vorticity, velocity, free stream, forcing, filter, message schedule", "why_tests_cant": "conservation must hold for every field and history, and the sums cross all rank boundaries", "anchors": ["sopht_mpi/simulator/flow/flow_simulators_mpi_2d.py: UnboundedFlowSimulator2D.time_step", "sopht_mpi/simulator/flow/flow_simulators_mpi_3d.py: UnboundedFlowSimulator3D.time_step", "sopht_mpi/numeric/eulerian_grid_ops/stencil_ops_3d/laplacian_filter_mpi_3d.py"]}
{"id": "C91", "title": "Maximum principle of diffusion", "statement": "Without velocity, a passive scalar (2D, 3D) or passive vector (3D) advanced with the simulator's stable time step (factor at most 1), or with any given one with 4 nu dt <= dx^2 (3D: 6), stays on every rank between the smallest and the largest initial value, for any number of steps.", "quantifier": "every grid, decomposition, viscosity, initial field, number of steps, mixture of stable and given time steps, schedule", "why_tests_cant": "a bound for every field and any number of steps", "anchors": ["sopht_mpi/simulator/flow/flow_simulators_mpi_2d.py: UnboundedFlowSimulator2D.time_step", "sopht_mpi/simulator/flow/flow_simulators_mpi_3d.py: UnboundedFlowSimulator3D.time_step", "sopht_mpi/simulator/flow/flow_simulators_mpi_2d.py: UnboundedFlowSimulator2D.compute_stable_timestep"]}
{"id": "C92", "title": "The velocity is discretely divergence free", "statement": "After any positive number of Navier-Stokes steps (with or without forcing, free stream, filter), the central-difference divergence of the velocity field is exactly zero in every cell of the global grid at least two cells away from the sides, also where the stencil crosses rank boundaries.", "quantifier": "every grid, decomposition, flow type, number of steps, time step (given or stable), vorticity, velocity, free stream, forcing, filter, message schedule", "why_tests_cant": "an identity over all fields, cells and decompositions", "anchors": ["sopht_mpi/simulator/flow/flow_simulators_mpi_2d.py: UnboundedFlowSimulator2D.time_step compute_flow_velocity", "sopht_mpi/simulator/flow/flow_simulators_mpi_3d.py: UnboundedFlowSimulator3D.time_step compute_flow_velocity"]}
{"id": "C93", "title": "The vorticity stays divergence free in 3D", "statement": "Navier-Stokes in 3D with or without forcing and filter: if the initial vorticity is discretely divergence free and neither it nor the forcing can have reached the sides or the penalty zone, then after any number of steps the vorticity of the ranks is divergence free in every cell of the global grid, and get_vorticity_divergence_l2_norm returns exactly 0 on all ranks.", "quantifier": "every grid, decomposition, flow type, number of steps, time step (given or stable), vorticity, velocity, free stream, forcing, filter, message schedule", "why_tests_cant": "the code comments 'check if vorticity stays divergence free' but a run only samples it", "anchors": ["sopht_mpi/simulator/flow/flow_simulators_mpi_3d.py: UnboundedFlowSimulator3D.time_step", "sopht_mpi/simulator/flow/flow_simulators_mpi_3d.py: get_vorticity_divergence_l2_norm"]}
{"id": "C94", "title": "Mirror images and exchange of the axes in 2D", "statement": "A simulation whose grid, fields, free stream and forcing are the mirror image (across x or across y) of those of another simulation, or those with x and y exchanged and x_range adjusted so that cells have the same size, has after any number of steps the same time and in every cell of every rank the mirrored (exchanged) values: opposite vorticity (same passive scalar), velocity components reflected. The two simulations may use different decompositions and numbers of ranks.", "quantifier": "every grid, pair of decompositions, flow type, number of steps, time step (given or stable), vorticity, velocity, free stream, forcing, message schedule", "why_tests_cant": "a symmetry between runs on different inputs and decompositions; an asymmetric boundary treatment would show only for special fields", "anchors": ["sopht_mpi/simulator/flow/flow_simulators_mpi_2d.py: UnboundedFlowSimulator2D.time_step", "sopht_mpi/numeric/eulerian_grid_ops/stencil_ops_2d/penalise_field_boundary_mpi_2d.py", "sopht_mpi/numeric/eulerian_grid_ops/poisson_solver_2d/UnboundedPoissonSolverMPI2D.py"]}
{"id": "C95", "title": "Mirror images and exchange of the axes in 3D", "statement": "The same in 3D: mirrors across any of the three axes (all flow types, with or without filter), exchange of x and y and of y and z (flows: without filter): same time, same scalar, the velocity reflected (exchanged) as a vector, the vorticity as a pseudovector. Negative: filtering does not commute with the exchange of axes next to the boundary, so with the filter the result depends on which axis is called x.", "quantifier": "every grid, pair of decompositions, flow type, number of steps, time step (given or stable), fields, free stream, forcing, filter, message schedule", "why_tests_cant": "a symmetry between runs on different inputs and decompositions; an asymmetric boundary treatment would show only for special fields", "anchors": ["sopht_mpi/simulator/flow/flow_simulators_mpi_3d.py: UnboundedFlowSimulator3D.time_step", "sopht_mpi/numeric/eulerian_grid_ops/stencil_ops_3d/penalise_field_boundary_mpi_3d.py", "sopht_mpi/numeric/eulerian_grid_ops/stencil_ops_3d/laplacian_filter_mpi_3d.py"]}
{"id": "C96", "title": "The time loop of a driver ends", "statement": "The loop `while flow_sim.time < t_end: dt = flow_sim.compute_stable_timestep(dt_prefac); flow_sim.time_step(dt)` ends without exception on every decomposition whenever the velocities of the run stay bounded until t_end, by however large a bound V: after at most ceil((t_end - time) / dt(V)) iterations, dt(V) being the stable time step at velocity V; it then stands at a time not before t_end and less than one (largest possible) time step after it. With a passive scalar or vector it always ends, after exactly ceil((t_end - time) / dt) iterations. On two decompositions of the same simulation it ends after the same number of iterations, at the same time and with the same fields.", "quantifier": "every grid, decomposition, flow type, initial fields, viscosity, CFL number, end time, message schedules of all iterations", "why_tests_cant": "termination of an unbounded loop, and equality of iteration counts between decompositions for all inputs", "anchors": ["examples/2d_examples/LambOseenVortexCase/lamb_oseen_vortex.py: lamb_oseen_vortex_flow_case", "examples/3d_examples/PointSourceAdvectAndDiffuseCase/point_source_advection_diffusion.py: point_source_advection_diffusion_case", "sopht_mpi/simulator/flow/flow_simulators_mpi_2d.py: UnboundedFlowSimulator2D.compute_stable_timestep", "sopht_mpi/simulator/flow/flow_simulators_mpi_3d.py: UnboundedFlowSimulator3D.compute_stable_timestep"]}
{"id": "C97", "title": "Snapshots at regular times", "statement": "A driver with the timer of the examples (`if foto_timer >= limit or foto_timer == 0: foto_timer = 0; snapshot`, in 3D `>`, and `foto_timer += dt` at the end of each iteration) runs its simulator exactly as without the timer; it takes a snapshot at the start, then in the first iteration that starts at least (more than) `limit` after the previous snapshot, and in no other; so snapshots are at least `limit` and at most `limit` plus the largest time step apart, every iteration starts at most `limit` after a snapshot, all are before t_end and there are at most ceil((t_end - t_start) / limit) of them.", "quantifier": "every simulation as in C96 that ends, every limit > 0, both kinds of timers", "why_tests_cant": "the time steps vary and are unknown in advance; the claim is about all sequences of them", "anchors": ["examples/2d_examples/LambOseenVortexCase/lamb_oseen_vortex.py: lamb_oseen_vortex_flow_case", "examples/3d_examples/PointSourceAdvectAndDiffuseCase/point_source_advection_diffusion.py: point_source_advection_diffusion_case", "examples/2d_examples/FlowPastCylinderCase/flow_past_cylinder.py", "examples/3d_examples/FlowPastSphereCase/flow_past_sphere_case.py"]}
{"id": "C98", "title": "Names of snapshot files", "statement": "File names `<prefix>` + `\"%0.<w>d\" % (time * 100)` + `<suffix>`: written at times at least 0.01 apart they differ, so no file is overwritten; while time * 100 < 10^w they sort (character by character, as the shell pattern given to ffmpeg does) in the order of time; and `int(name.split(\"_\")[-1].split(\".\")[0])` reads back the hundredths of time. Negative: at times less than 0.01 apart names may coincide; at time 100 the names of width 4 no longer sort (`snap_10000.png` before `snap_9999.png`), so the video is out of order.", "quantifier": "all times >= 0, widths, prefixes and suffixes", "why_tests_cant": "all times and widths", "anchors": ["examples/2d_examples/LambOseenVortexCase/lamb_oseen_vortex.py: lamb_oseen_vortex_flow_case", "examples/3d_examples/PointSourceAdvectAndDiffuseCase/point_source_advection_diffusion.py: point_source_advection_diffusion_case", "examples/3d_examples/FlowPastFreelyRotatingRodCase/flow_past_freely_rotating_rod_case.py: flow_past_rod_case", "examples/2d_examples/FlowPastRodCase/flow_past_rod.py: flow_past_rod_case"]}
{"id": "C99", "title": "Crashes and restarts from checkpoints", "statement": "The freely rotating rod example writes a checkpoint as four files one after the other and restarts from the flow file with the largest number. For every sequence of checkpoints at increasing times and every point at which the run is killed (between or inside the writing of files): a restart that succeeds has read the four parts of one and the same checkpoint, the last complete one, whatever files of earlier runs are in the directory; in a directory that was fresh when the run began it succeeds exactly if the run was killed between checkpoints. Negative: killed inside a checkpoint, the run cannot be restarted although earlier checkpoints are complete, and killed while the state of the rod solver is being written (it is overwritten in place) it cannot be restarted from any checkpoint; a flow file of an earlier, longer run in the directory makes every restart fail.", "quantifier": "every number of checkpoints, increasing times, contents, crash points, contents of the directory before", "why_tests_cant": "quantifies over every crash point of every history of checkpoints and every initial content of the directory", "anchors": ["examples/3d_examples/FlowPastFreelyRotatingRodCase/flow_past_freely_rotating_rod_case.py: flow_past_rod_case", "sopht_mpi/utils/mpi_io.py: MPIIO.save, MPIIO.load"]}
{"id": "C100", "title": "Sub-stepping of bodies keeps the clocks in step", "statement": "The rod drivers take `rod_time_steps = int(flow_dt / min(flow_dt, rod_dt))` sub-steps of `flow_dt / rod_time_steps` per flow step, each followed by `interactor.time_step`. There is always at least one, together they make exactly the flow step, a sub-step is the flow step if that is at most rod_dt and otherwise at least rod_dt and less than 2 rod_dt. Hence through any number of iterations of the driver, on any decomposition and under any message schedules, for every body that stays inside, no exception is raised and the clock of the interactor (which the integral part of its forces uses) and that of the flow stay equally far apart, and no other interactor moves. The body is always stepped from the time its last sub-step reached: a body with a clock of its own cannot notice that the driver hands it the time of the flow anew in every flow step. Negative: the damper of the rod is set up with rod_dt but acts once per sub-step, so its time is that of the flow only if the flow step is a multiple of rod_dt.", "quantifier": "every flow step, rod_dt > 0, number of iterations, decomposition, body and stepper, message schedules", "why_tests_cant": "the time steps vary and depend on the flow; the claim is about all histories of them", "anchors": ["examples/2d_examples/FlowPastRodCase/flow_past_rod.py: flow_past_rod_case", "examples/3d_examples/FlowPastRodCase/flow_past_rod_case.py: flow_past_rod_case", "examples/3d_examples/FlowPastFreelyRotatingRodCase/flow_past_freely_rotating_rod_case.py: flow_past_rod_case", "sopht_mpi/numeric/immersed_boundary_ops/VirtualBoundaryForcingMPI.py: time_step"]}
{"id": "C101", "title": "Origin of the written grid", "statement": "The origin that drivers give to `define_eulerian_grid` – the minimum over all ranks (allreduce MIN) of the local minima of the position field without ghost cells – is the centre of the first cell of the grid, dx / 2, on each axis and on every decomposition; so the cell in which the file shows a value (origin + dx * index) is where the simulation has it. Negative: the 3D rod examples do not cut the ghost cells off the x axis, so all they write is shifted by ghost_size cells in x.", "quantifier": "every grid, decomposition, ghost size >= 1, domain length", "why_tests_cant": "all decompositions and grid sizes", "anchors": ["examples/2d_examples/FlowPastRodCase/flow_past_rod.py: flow_past_rod_case", "examples/3d_examples/FlowPastRodCase/flow_past_rod_case.py: flow_past_rod_case", "examples/3d_examples/FlowPastFreelyRotatingRodCase/flow_past_freely_rotating_rod_case.py: flow_past_rod_case", "examples/3d_examples/FlowPastSphereCase/flow_past_sphere_case.py", "examples/3d_examples/PointSourceAdvectAndDiffuseCase/point_source_advection_diffusion.py: point_source_advection_diffusion_case", "sopht_mpi/utils/mpi_io.py: MPIIO.define_eulerian_grid"]}
{"id": "C102", "title": "Error norms do not depend on the decomposition", "statement": "The L2 and Linf errors the validation drivers report – local sums of squares (maxima) over the inner cells, allreduced – are, on every decomposition, the weighted 2-norm over all cells of the grid with weight dx^2 (3D dx^3) and the maximum over all cells of the difference of the field and the reference solution at the cell centres.", "quantifier": "every grid, decomposition, field and reference solution", "why_tests_cant": "all decompositions and fields", "anchors": ["examples/2d_examples/LambOseenVortexCase/lamb_oseen_vortex.py: lamb_oseen_vortex_flow_case", "examples/3d_examples/PointSourceAdvectAndDiffuseCase/point_source_advection_diffusion.py: point_source_advection_diffusion_case"]}
{"id": "C103", "title": "The reference solutions are solutions", "statement": "The Lamb-Oseen vorticity of the helper, its centre carried by a uniform stream, solves the vorticity equation with the velocity of the helper (plus the stream); away from the centre that velocity is free of divergence and its curl is that vorticity. The diffused point source solves the advection-diffusion equation. Negative: the Lamb-Oseen example starts with the velocity of t_end, whose curl is not the vorticity it starts with; the point source example compares the final field with the solution at t_start, so that an exact simulation is reported to have an error; its source does not start with magnitude 1 as the comment says but with (4 pi nu)^(-1/2), more than 8.", "quantifier": "all positions, times > 0, viscosities > 0, strengths, streams", "why_tests_cant": "a statement about derivatives at every point of space and time", "anchors": ["examples/2d_examples/LambOseenVortexCase/lamb_oseen_helpers.py: compute_lamb_oseen_vorticity, compute_lamb_oseen_velocity", "examples/3d_examples/PointSourceAdvectAndDiffuseCase/point_source_helpers.py: compute_diffused_point_source_field", "examples/2d_examples/LambOseenVortexCase/lamb_oseen_vortex.py: lamb_oseen_vortex_flow_case", "examples/3d_examples/PointSourceAdvectAndDiffuseCase/point_source_advection_diffusion.py: point_source_advection_diffusion_case"]}
{"id": "C104", "title": "Flow past a fixed body, end to end", "statement": "The drivers for flow past a cylinder and past a sphere – stable time step, interactor.time_step, interactor(), flow time_step, in a loop with plot and data timers – for a body inside the domain: as long as the velocities before t_end stay below V, the loop ends without exception after at most (t_end - t0)/dt(V) iterations, plots and drag coefficients are taken at the start and then whenever the timers are due; the clock of the interactor keeps in step with that of the flow. The drag coefficient recorded after an iteration is |F|/scale where F is the total force along x that the body put on the fluid in that very iteration: the forcing of each flow step is clean before the interaction, and its integral over the grid afterwards is the sum of the node forces the master holds. The first recorded coefficient is 0. On two decompositions of the same problem, if the driver ends on one, it ends on the other after as many iterations, with the same records at the same times and the same fields.", "quantifier": "every body inside the domain, initial field, free stream, viscosity, time limits, decomposition, message schedules", "why_tests_cant": "a statement about whole runs of any length on all decompositions and schedules", "anchors": ["examples/2d_examples/FlowPastCylinderCase/flow_past_cylinder.py: flow_past_cylinder_boundary_forcing_case", "examples/3d_examples/FlowPastSphereCase/flow_past_sphere_case.py: flow_past_sphere_case", "sopht_mpi/simulator/immersed_body/immersed_body_flow_interaction_mpi.py: ImmersedBodyFlowInteractionMPI"]}
{"id": "C105", "title": "Passive fields travel with the stream and spread at the given viscosity", "statement": "A passive scalar (2D, 3D), or each component of a passive vector (3D), in a uniform velocity field U, as long as it cannot have reached the sides: in any number of time steps, given or stable, of any sizes, its sum over all cells of all ranks stays the same, its first moments (weights: the coordinates in position_field) grow by elapsed time x U x sum, so that its centre of mass moves exactly with the stream whatever the viscosity and the time steps; and if U = 0 its second moments along each axis grow by exactly 2 x viscosity x elapsed time x sum.", "quantifier": "every initial field, stream, viscosity, number and sizes of time steps, grid, decomposition, message schedules", "why_tests_cant": "runs of any length on all decompositions and all initial fields; a test compares one advected Gaussian with a tolerance", "anchors": ["sopht_mpi/simulator/flow/flow_simulators_mpi_2d.py: UnboundedFlowSimulator2D", "sopht_mpi/simulator/flow/flow_simulators_mpi_3d.py: UnboundedFlowSimulator3D", "sopht_mpi/numeric/eulerian_grid_ops/stencil_ops_2d/advection_flux_mpi_2d.py", "sopht_mpi/numeric/eulerian_grid_ops/stencil_ops_2d/diffusion_flux_mpi_2d.py"]}
{"id": "C106", "title": "Forces on the fluid are the rate of change of its impulse", "statement": "In any correct coupled program, with any bodies, when a flow time step of size dt is called its forcing stage changes the impulse of the vorticity (2D: (sum y w, - sum x w); 3D: 1/2 sum x cross w, over the cells of all ranks) by dt times the sum of the forcing field, component by component with the right sign. In the drivers for flow past a fixed cylinder or sphere this links the force the drag coefficient reads to the flow: cell volume x change of impulse = dt x total node force, in each iteration. In 3D a whole Navier-Stokes step, with or without forcing and filter, changes the impulse by exactly dt x (sum of the forcing + sum of u cross w) as long as the vorticity cannot have reached the sides: diffusion, filter and penalisation leave it alone.", "quantifier": "every program, body, initial field, viscosity, filter, time step, grid, decomposition, message schedules", "why_tests_cant": "holds at every point of every coupled run; no test compares forces with the momentum of the flow", "anchors": ["sopht_mpi/simulator/flow/flow_simulators_mpi_2d.py: UnboundedFlowSimulator2D", "sopht_mpi/simulator/flow/flow_simulators_mpi_3d.py: UnboundedFlowSimulator3D", "examples/2d_examples/FlowPastCylinderCase/flow_past_cylinder.py: flow_past_cylinder_boundary_forcing_case", "examples/3d_examples/FlowPastSphereCase/flow_past_sphere_case.py: flow_past_sphere_case", "sopht_mpi/simulator/immersed_body/immersed_body_flow_interaction_mpi.py: ImmersedBodyFlowInteractionMPI"]}
{"id": "C107", "title": "The result does not depend on the size or the place of the grid", "statement": "Two simulations with the same grid spacing, viscosity, flow type, free stream and filter on grids of any (also different) sizes and aspect ratios, with any decompositions, penalty zone widths and (3D) ghost sizes, the second started from the fields of the first moved by any whole number of cells and given the same time steps and the forcings moved alike: as long as vorticity (passive field) and forcing cannot have come near the sides of either grid, after any number of time steps every cell of the second grid that lies over a cell of the first holds the same vorticity (scalar, vector) and every other cell holds zero, in both directions, and the velocities agree in all cells that are outermost in neither grid. So a larger grid gives the same flow: the fluid is unbounded.", "quantifier": "every pair of grids, displacement, initial fields, forcings, number and sizes of time steps, flow type, decomposition, message schedules", "why_tests_cant": "relates all pairs of grids and runs of any length; a test can compare two grids for one flow", "anchors": ["sopht_mpi/simulator/flow/flow_simulators_mpi_2d.py: UnboundedFlowSimulator2D", "sopht_mpi/simulator/flow/flow_simulators_mpi_3d.py: UnboundedFlowSimulator3D", "sopht_mpi/numeric/eulerian_grid_ops/poisson_solver_2d/UnboundedPoissonSolverMPI2D.py: UnboundedPoissonSolverMPI2D", "sopht_mpi/numeric/eulerian_grid_ops/poisson_solver_3d/UnboundedPoissonSolverMPI3D.py: UnboundedPoissonSolverMPI3D"]}
{"id": "C108", "title": "The validation drivers report what a run on one global grid would report", "statement": "The drivers for the Lamb-Oseen vortex (2D) and for the diffusing point source (3D), run on any grid and decomposition, with any schedule of messages and any contents of fresh arrays: they raise nothing; every run of them ends with the same result (3D: always, after exactly ceil((t_end - t_start)/dt) iterations of the same dt; 2D: whenever the velocity stays bounded until t_end); the times and largest vorticities they log at their snapshots, the final time, the final centre and the L2 and Linf errors they log are those of the steps on the global grid, in which no decomposition appears; snapshots are taken in the iterations the photo timer prescribes; in 2D exactly the master writes one picture per snapshot, named after its time, of the vorticity on the whole grid with one colour bar; in 3D with save_data one HDF5 file per snapshot, named after its time, holds that time and all three components in every cell.", "quantifier": "every grid, decomposition, set of constants, initial contents of arrays, message schedule, order of writing, kernel", "why_tests_cant": "a test runs the driver on some ranks and grid; the property covers all of them, and all schedules", "anchors": ["examples/2d_examples/LambOseenVortexCase/lamb_oseen_vortex.py: lamb_oseen_vortex_flow_case", "examples/3d_examples/PointSourceAdvectAndDiffuseCase/point_source_advection_diffusion.py: point_source_advection_diffusion_case"]}
{"id": "C109", "title": "The drivers for the flow past a rod report what flow and body on one global grid would report", "statement": "The drivers for the flow past a moving body (2D rod, 3D rods), for any body that moves under the forces it gets from the interactor, run on any grid and decomposition with any schedule of messages, as long as the body stays inside the domain and the velocity stays bounded until t_end: they raise nothing and end, after a bounded number of iterations, and every run ends the same way; the snapshots are taken in the iterations the photo timer prescribes, and what they log and plot (time, largest vorticity, grid deviation, in 3D also the norm of the divergence of the vorticity and the total force on the body) and what is recorded of the body are those of a run of flow and body on the global grid, in which no decomposition appears; so is the body at the end, and the vorticity and velocity in every cell; the clock of the interactor has advanced by as much as that of the flow. Two decompositions give the same logs, records, body and fields.", "quantifier": "every grid, decomposition, set of constants, initial field, body stepper, ramp of the free stream, message schedule, order of the slaves, kernel", "why_tests_cant": "the existing examples run one rod on one grid; the property covers every body, grid, number of ranks and schedule of messages over whole runs", "anchors": ["examples/2d_examples/FlowPastRodCase/flow_past_rod.py: flow_past_rod_case", "examples/3d_examples/FlowPastRodCase/flow_past_rod_case.py: flow_past_rod_case", "examples/3d_examples/FlowPastFreelyRotatingRodCase/flow_past_freely_rotating_rod_case.py"]}
{"id": "C110", "title": "Diffusion dissipates and keeps order", "statement": "A passive scalar (2D, 3D) or passive vector (3D) without velocity on any number of ranks, advanced by any number of time_step calls with the stable time step (prefactor at most 1) or any given time step with 2d nu dt <= dx^2: if the field starts at zero in the outermost cells of the domain, then for every convex nonnegative function that is zero at zero (squares, absolute values, any power, excess over a level) its sum over the inner cells of all ranks does not grow; and of two such runs with the same steps, one that starts nowhere above the other is nowhere above it afterwards, in any cell of any rank.", "quantifier": "every grid, decomposition, initial field, viscosity, sequence of time steps, convex penalty, kernels with the five/seven-point Laplacian", "why_tests_cant": "the point source test compares one run with one analytical solution; dissipation and order hold for every field, number of ranks and number of steps", "anchors": ["sopht_mpi/simulator/flow/flow_simulators_mpi_2d.py: UnboundedFlowSimulator2D.advection_and_diffusion_timestep, compute_stable_timestep", "sopht_mpi/simulator/flow/flow_simulators_mpi_3d.py: UnboundedFlowSimulator3D.scalar_advection_and_diffusion_timestep, vector_advection_and_diffusion_timestep"]}
{"id": "C111", "title": "Immersed bodies create no net circulation and no volume", "statement": "Any driver program with any immersed bodies (any number of nodes, motion, stiffness and damping; bodies may react to the forces, time steps may depend on what was computed): the sum of the vorticity (2D), or of each of its components (3D), over the inner cells of all ranks at the end is the one at the start, and in 3D a divergence free vorticity is still divergence free in every cell, also across rank boundaries, as long as bodies and vorticity keep so far from the sides that nothing can have reached them or the penalty zone (three cells per flow step, in 3D plus the order of the filter). After any program with at least one flow step, wherever the bodies are, the central divergence of the velocity is zero in every cell at least two cells from the sides.", "quantifier": "every driver program, number and motion of bodies, initial fields, viscosity, free stream, time steps, grid, decomposition, message schedules", "why_tests_cant": "the body tests compare forces on a few nodes with a serial run; conservation must hold for all bodies, motions, programs, numbers of steps and decompositions", "anchors": ["sopht_mpi/simulator/immersed_body/immersed_body_flow_interaction_mpi.py: ImmersedBodyFlowInteractionMPI.__call__", "sopht_mpi/simulator/flow/flow_simulators_mpi_2d.py: UnboundedFlowSimulator2D.time_step", "sopht_mpi/simulator/flow/flow_simulators_mpi_3d.py: UnboundedFlowSimulator3D.time_step"]}
{"id": "C112", "title": "Forces on bodies do not depend on the size or the place of the grid", "statement": "Two flows with the same immersed bodies and the same grid spacing, viscosity, free stream and filter on grids of any (also different) sizes, with any decompositions, master ranks, penalty zone widths and (3D) ghost sizes; fluid and bodies of the second are those of the first moved by any whole number of cells; both are driven by the same calls with given time steps, where the driver may react to forces, deviations, largest vorticity and divergence norms (bodies moved by the forces on them). As long as bodies and vorticity keep so far from the sides of both grids that nothing can have reached them, both runs end without error, at the same time, print the same numbers, the forces on every node of every body are equal, every cell over a cell of the other grid holds the same vorticity and forcing, the other cells hold zero, and the velocities agree in all cells outermost in neither grid.", "quantifier": "every pair of grids, displacement, driver program with given time steps, bodies, initial fields, viscosity, free stream, decomposition, message schedules", "why_tests_cant": "relates all pairs of grids and all driver programs; a test can compare the forces on one body on two grids", "anchors": ["sopht_mpi/simulator/immersed_body/immersed_body_flow_interaction_mpi.py: ImmersedBodyFlowInteractionMPI.__call__", "sopht_mpi/numeric/immersed_boundary_ops/EulerianLagrangianGridCommunicatorMPI2D.py", "sopht_mpi/simulator/flow/flow_simulators_mpi_2d.py: UnboundedFlowSimulator2D.time_step", "sopht_mpi/simulator/flow/flow_simulators_mpi_3d.py: UnboundedFlowSimulator3D.time_step"]}
{"id": "C113", "title": "Only the master's copy of a body counts", "statement": "Every rank builds and steps its own copy of an immersed body, from whatever state, in the loop of the rod drivers (log line, diagnostic data, stable time step, sub-steps of the body with forces from the interactor, interaction, flow step), and the ranks run independently, synchronised by messages only. They never get stuck and all return. Flow fields, forcing, forces on the nodes and interactor clocks on all ranks are those of the master's copy coupled to the flow on one global grid: the copies on the other ranks have no influence. The loop ends at the first iteration that begins at the final time or later. Every rank writes its log lines and diagnostic data in the same iterations, those in which the timers have run out, with the same time, greatest vorticity and deviation. What the master records of the body is the coupled body; what any other rank records is a body on which the fluid exerts no force at all, stepped with the same time steps.", "quantifier": "every body and time stepper, number of nodes, initial states of the copies, decomposition, master rank, initial flow, number of iterations, timers, interleaving of the ranks, with or without message buffering", "why_tests_cant": "a test has one body, one decomposition and one interleaving; that the copies on other ranks do not matter is a statement about all their states", "anchors": ["sopht_mpi/simulator/immersed_body/immersed_body_forcing_grid.py: EmptyForcingGrid", "sopht_mpi/simulator/immersed_body/cosserat_rod/cosserat_rod_flow_interaction_mpi.py: CosseratRodFlowInteraction.__init__", "sopht_mpi/simulator/immersed_body/rigid_body/rigid_body_flow_interaction_mpi.py: RigidBodyFlowInteractionMPI.__init__", "sopht_mpi/simulator/immersed_body/immersed_body_flow_interaction_mpi.py: compute_flow_forces_and_torques", "examples/2d_examples/FlowPastRodCase/flow_past_rod.py", "examples/3d_examples/FlowPastRodCase/flow_past_rod_case.py"]}
{"id": "C114", "title": "Coupling coefficients are scaled alike on all ranks, once if given as numbers", "statement": "The constructor of an interactor gives on every rank the same verdict on the resolution of the body (too coarse exactly if the nodes are more than two grid spacings apart, too fine exactly if less than half a grid spacing, else fine), although only the master knows the body, and raises on every rank if master_rank is no rank. Coefficients passed as numbers: any number of interactors can be built from them, each gets its own coefficients times the spacing of its own nodes to the power dimension minus one. Coefficients passed as NumPy arrays are changed in place: with the same arrays for several interactors all of them, also those built earlier, end with the product of all scale factors; the same array for both coefficients is scaled twice.", "quantifier": "every number of interactors, bodies, spacings, coefficients, dimension, rank set, master ranks, and every rank", "why_tests_cant": "ranges over all sequences of constructors on all ranks; a test builds one interactor with one pair of numbers", "anchors": ["sopht_mpi/simulator/immersed_body/immersed_body_flow_interaction_mpi.py: ImmersedBodyFlowInteractionMPI.__init__", "sopht_mpi/simulator/immersed_body/immersed_body_forcing_grid.py: EmptyForcingGrid.get_maximum_lagrangian_grid_spacing"]}
{"id": "C115", "title": "Results do not depend on the units: dynamic similarity", "statement": "Two simulations with the same numbers of cells whose parameters differ by units only, i.e. all lengths are l times, all velocities v times and all times l/v times those of the other (width of the domain, viscosity times l v, time steps, free stream, forcing times v^2/l, initial fields; with immersed bodies also positions and velocities of the nodes, node spacing, grid shift, stiffness times v^2/l and damping times v), whatever the decompositions, message orders and driver (which may use forces, deviations, largest vorticity and divergence norm converted to its own units): both end, print the same numbers, and times, vorticity, velocity, forcing and the forces on all nodes of the second are those of the first times the unit (l/v, v/l, v, v^2/l, v^2 l in 2D and v^2 l^2 in 3D). Passive fields may have any factor. Time steps have to be given by the driver; in 2D compute_stable_timestep may be used if velocities keep their unit, in 3D it may not (a fixed small number is added to the viscosity).", "quantifier": "every positive l and v, grid, pair of decompositions, flow type, number of steps, initial fields, forcing, bodies, driver program, message schedules", "why_tests_cant": "ranges over all scale factors, flows and drivers; a test has one set of parameters, and a wrong power of dx or dt cannot be seen on a grid with dx near one", "anchors": ["sopht_mpi/simulator/flow/flow_simulators_mpi_2d.py: time_step, compute_stable_timestep", "sopht_mpi/simulator/flow/flow_simulators_mpi_3d.py: time_step, compute_stable_timestep, get_vorticity_divergence_l2_norm", "sopht_mpi/numeric/immersed_boundary_ops/EulerianLagrangianGridCommunicatorMPI2D.py", "sopht_mpi/simulator/immersed_body/immersed_body_flow_interaction_mpi.py: ImmersedBodyFlowInteractionMPI"]}
{"id": "C116", "title": "The drivers for the flow past a cylinder and past a sphere, as functions of their arguments", "statement": "flow_past_cylinder_boundary_forcing_case and flow_past_sphere_case, called with any final time, grid size, positive Reynolds number, coupling stiffness and damping and rank distribution such that the grid is wide enough for the body and blocks are not too small: simulator and interactor can be constructed (without rank distribution, whenever the number of ranks divides the grid suitably); the loop ends without exception, in the first iteration that would begin at the final time or later, if velocities stay bounded; log lines (time, percentage, largest vorticity, deviation, in 3D also drag coefficient and norm of the divergence) and drag coefficients are recorded in the iterations when their timers are due, with the values of a run of flow and body on one global grid; fields on all ranks are those of that run; and on two numbers or arrangements of ranks the driver makes as many iterations and reports the same.", "quantifier": "every argument of the drivers, topology, nodes on the body, number of iterations, message schedules", "why_tests_cant": "the drivers run for minutes to hours with one set of arguments; the claim is about all arguments, all numbers of ranks and all schedules of the messages", "anchors": ["examples/2d_examples/FlowPastCylinderCase/flow_past_cylinder.py: flow_past_cylinder_boundary_forcing_case", "examples/3d_examples/FlowPastSphereCase/flow_past_sphere_case.py: flow_past_sphere_case"]}
{"id": "C117", "title": "Passive transport is reproducible bit for bit in machine arithmetic", "statement": "Whatever the arithmetic of the machine (no law of addition, multiplication or rounding is used; only the kernels' operations, in the order of the code), the time loop of a passive scalar (2D, 3D) or passive vector (3D) simulator, in which the driver may assign velocities and takes dt as a number or from compute_stable_timestep, raises nothing on every non-periodic decomposition with blocks of at least 4 cells per axis, and all ranks then hold exactly the values and the time which the same operations give on the global grid. So any two decompositions, with any message orders, agree bit for bit. For the stable time step the arithmetic has to be monotone: a greater velocity magnitude never gives a greater limit, which holds for every monotone rounding that keeps 0 and the tolerance. Sums over ranks, in contrast, are not reproducible.", "quantifier": "every type of numbers and arithmetic, grid, pair of decompositions, initial field, list of rounds (assigned velocities, time steps), message schedules", "why_tests_cant": "a test compares floating point results on a few decompositions with a tolerance; the claim is exact equality for all decompositions, fields and rounding modes", "anchors": ["sopht_mpi/simulator/flow/flow_simulators_mpi_2d.py: time_step, advection_and_diffusion_timestep, compute_stable_timestep", "sopht_mpi/simulator/flow/flow_simulators_mpi_3d.py: time_step, scalar_advection_and_diffusion_timestep, vector_advection_and_diffusion_timestep, compute_stable_timestep", "sopht_mpi/numeric/eulerian_grid_ops/stencil_ops_2d/advection_timestep_mpi_2d.py", "sopht_mpi/numeric/eulerian_grid_ops/stencil_ops_2d/diffusion_timestep_mpi_2d.py", "sopht_mpi/numeric/eulerian_grid_ops/stencil_ops_3d/advection_timestep_mpi_3d.py", "sopht_mpi/numeric/eulerian_grid_ops/stencil_ops_3d/diffusion_timestep_mpi_3d.py"]}
{"id": "C118", "title": "The shared log file has every line once, whole and in order", "statement": "After enable_write_to_logfile on all ranks, any number of times and with any file names, and any records logged by the ranks, however the writes of ranks and handlers interleave: the job cannot deadlock and ends; at the end every file has its old contents followed by the lines of all records logged since it was opened, each in one piece and exactly once, those of one rank in the order of its calls; the old contents are never touched; a file opened once consists of whole lines at every moment, so also after a crash. Hence the number of lines is that of the messages of echo ranks which reach the level. If some rank does not open the file, or opens it under another name (timestamp=True with clocks a second apart), no rank gets past the opening and nothing is written. A file opened twice may be garbled when the job is killed.", "quantifier": "every number of ranks, program of openings and records per rank, initial file contents, order of the writes, crash point", "why_tests_cant": "ranges over all interleavings and crash points; the test counts the lines of one run", "anchors": ["sopht_mpi/utils/mpi_logger.py: MPIFileHandler, enable_write_to_logfile", "tests/test_utils/test_mpi_logger.py: test_mpi_logger_output_to_file"]}
{"id": "C119", "title": "Flow past a rod: the driver as a function of its arguments", "statement": "flow_past_rod_case (2D) with any of its arguments: viscosity, free stream ramp, rod properties and time steps computed from them give the Reynolds number, bending stiffness, mass ratio and Froude number asked for; simulator and interactor can be constructed on a grid of at least 16 columns which is high enough for the inclined rod (without rank_distribution: on every number of ranks that divides the rows with at least 4 each). While velocities stay bounded and the rod stays inside, the loop ends without exception, with one possible result, in the first iteration that would begin at the final time or later; log lines every final_time/60, tip deflections every 0.1 and the fields at the end are those of flow and rod on one global grid, so the same on any two decompositions.", "quantifier": "all arguments, slab decompositions, message schedules, orders of sets of ranks, contents of uninitialised buffers, mechanical models of the rod", "why_tests_cant": "the examples are never run by the tests, and the statement is about all arguments, decompositions and schedules", "anchors": ["examples/2d_examples/FlowPastRodCase/flow_past_rod.py: flow_past_rod_case"]}
{"id": "C120", "title": "Flow past a 3D rod: the driver as a function of its arguments", "statement": "flow_past_rod_case (3D) with any of its arguments: viscosity, free stream, rod properties and time steps computed from them give the Reynolds number, Cauchy number, mass ratio, stretching ratio and the Froude number asked for (with gravity made dimensionless with the diameter, as the code does, not the length as its comment says); simulator and interactor can be constructed on every grid that is wide enough for the hanging rod (without rank_distribution: on every topology without a cut along x which divides the grid into blocks of at least 2 cells a side). While velocities stay bounded and the rod stays inside, the loop ends without exception, with one possible result, in the first iteration that would begin at the final time or later; log lines, everything kept for the files (time, angle, forces) and the fields at the end are those of flow and rod on one global grid, so the same on any two decompositions.", "quantifier": "all arguments, block decompositions, message schedules, orders of sets of ranks, contents of uninitialised buffers, mechanical models of the rod, positions of the nodes on the rod", "why_tests_cant": "the examples are never run by the tests, and the statement is about all arguments, decompositions and schedules", "anchors": ["examples/3d_examples/FlowPastRodCase/flow_past_rod_case.py: flow_past_rod_case"]}
{"id": "C121", "title": "Flow past a freely rotating rod: the driver as a function of its arguments", "statement": "The freely rotating rod example with any of its arguments (without restart): viscosity, rod properties and time steps computed from them give the Reynolds number, Cauchy number, mass ratio and aspect ratio asked for; simulator and interactor can be constructed on every grid that is wide enough for the inclined rod (without rank_distribution: on every topology without a cut along x which divides the grid into blocks of at least 2 cells a side). While velocities stay bounded and the rod stays inside, the loop ends without exception, with one possible result, in the first iteration that would begin at the final time or later; log lines, the states of the rod that are saved and the fields at the end are those of flow and rod on one global grid started from the uniform stream, so the same on any two decompositions; the files of the flow have different, growing numbers if the rod's length is at least 1/20.", "quantifier": "all arguments, block decompositions, message schedules, orders of sets of ranks, contents of uninitialised buffers, mechanical models of the rod, positions of the nodes on the rod", "why_tests_cant": "the examples are never run by the tests, and the statement is about all arguments, decompositions and schedules", "anchors": ["examples/3d_examples/FlowPastFreelyRotatingRodCase/flow_past_freely_rotating_rod_case.py: flow_past_rod_case"]}
{"id": "C122", "title": "Without a free stream, a 3D restart is exact for every penalty zone", "statement": "A 3D simulator with vorticity (with or without forcing by immersed bodies, with or without a filter) is constructed without a free stream and with any admissible penalty zone, the default of 2 cells included. A run is checkpointed and continued by a newly constructed simulator (and new interactors) on any distribution of ranks over the same grid. If the velocity of both simulators was set up as zero at the cell centres beyond the sides of the domain (as it is when they are newly constructed), the restarted run is that of the uninterrupted one: same time, same vorticity and velocity in every inner cell; with bodies the same output, forcing and forces too. Vorticity and whatever else the new simulator held does not matter. With a free stream and the default penalty zone a restart is not exact: ghost cells beyond the sides, which the file does not hold, then enter the next step (wider zones: C75, C84).", "quantifier": "every grid, pair of rank distributions, penalty zone, filter, initial condition, number of steps, driver with bodies, order in which ranks write the file, schedule of messages", "why_tests_cant": "it compares two unbounded runs for all distributions and schedules; no test restarts a simulator, and whether ghost cells beyond the sides are state depends on the flow having a free stream", "anchors": ["sopht_mpi/simulator/flow/flow_simulators_mpi_3d.py: UnboundedFlowSimulator3D", "sopht_mpi/utils/mpi_io.py: MPIIO.save, MPIIO.load", "sopht_mpi/numeric/eulerian_grid_ops/stencil_ops_3d/penalise_field_boundary_mpi_3d.py"]}
