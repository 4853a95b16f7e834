c('C01','proved','decomposition2_partition decomposition2_inside decomposition3_partition decomposition3_inside')
c('C02','proved','construct2_refuses_iff construct2_ok construct2_total construct3_refuses_iff construct3_ok construct3_total')
c('C03','proved','neighbours2_mirror neighbours3_mirror diagonal2_mirror diagonal3_mirror neighbour_axis rank2_bijection rank3_bijection')
c('C04','proved','ghost2_all_matched ghost3_all_matched')
c('C05','proved','exchange2_correct exchange2_inner_kept exchange2_edges exchange2_columns')
c('C06','proved','exchange2_corners exchange2_correct')
c('C07','proved','exchange2_global_window exchange2_global_window_periodic exchange3_global_window exchange3_global_window_periodic')
c('C08','proved','exchange3_correct exchange3_inner_kept exchange3_faces')
c('C09','proved','exchange3_full_direction exchange3_faces_only_keeps_edges')
c('C10','proved','exchange2_idempotent vecExchange2_componentwise exchange3_idempotent vecExchange3_componentwise')
c('C11','proved','ghostCommCheck_accepts_iff ghostCommCheck_unsound ghostCommCheck_complete fieldCommCheck_accepts_iff fieldCommCheck_unsound',
  'The code accepts negative and zero ghost sizes; the theorems state exactly what is accepted and exhibit the accepted bad values.')
c('C12','proved','exchange2_thin_block_wrong exchange2_correct exchange2_global_window exchange3_correct exchange3_global_window')
c('C13','proved','scatter2_correct scatterVec2_componentwise scatter3_correct scatterVec3_componentwise')
c('C14','proved','gather2_correct gather2_scatter2 scatter2_gather2 gatherVec2_componentwise gather3_correct gather3_scatter3 scatter3_gather3 gatherVec3_componentwise slaveOrder2_exists slaveOrder3_exists')
c('C15','proved','mapping2_owner mapping3_owner lag_node_one_owner lag_counts_sum lag_counts_sum_topology')
c('C16','proved','mapping2_aborts_iff mapping3_aborts_iff mapping2_below_accepted mapping2_outside_not_refused')
c('C17','proved','scatterLag_correct gatherLag_correct gatherLag_scatterLag scatterLag_gatherLag slaveSet_exists')
c('C18','proved','vbf_force_law')
c('C19','proved','vbf_history vbf_position_mismatch vbf_time')
c('C20','proved','vbf_history vbf_swap_misattributes vbf_swap_wrong')
c('C24','proved','ghostSum2_correct ghostSum3_correct ghostSum2_global ghostSum3_global ghostSum2_wrapped ghostSum3_wrapped ghostSum2_thin_block_wrong')
c('C25','proved','ghostSum2_total ghostSum2_conserves ghostSum3_total ghostSum3_conserves')
c('C26','proved','ghostSum2_schedule ghostSum3_schedule ghostSum2_no_deadlock ghostSum3_no_deadlock ghostSum_no_deadlock_buffered ghostSum_periodic_deadlock')
c('C56','proved','gridDeviation_rms')
c('C21','proved','elCheck_ok_iff window2_inside window3_inside window2_outside')
c('C22','proved','interp2_decomposition_free interp2_decomposition_free_periodic interp3_decomposition_free interp3_decomposition_free_periodic')
c('C23','proved','spread2_decomposition_free spread3_decomposition_free spread2_periodic spread3_periodic','non-periodic: contributions to the cell; periodic: contributions to all images of the cell')
c('C29','proved','interp_spread_adjoint2 interp_spread_adjoint3 interp_spread_adjoint2_periodic interp_spread_adjoint3_periodic','non-periodic: nodes whose window lies in the domain; periodic: every node')
c('C27','proved','cosine_sum2 cosine_sum3 cosine_constant2 cosine_constant3 cosine_conserves2 cosine_conserves3')
c('C28','proved','peskin_sum2 peskin_sum3 peskin_constant2 peskin_constant3 peskin_conserves2 peskin_conserves3')
c('C59','proved','peskin_linear2 peskin_linear3')
c('C60','proved','interp_between2 interp_between3')
c('C30','proved','checkSupport_error_iff genFieldKernel3_error_iff','iff, for every ghost size, support and (3D) field type')
c('C31','proved','passes2_exactly_once_iff timesWritten2_pos kernel2_thin_doubles','sharp iff condition; double counting on thin blocks proved for every block, not only a witness')
c('C32','proved','passes3_exactly_once_iff timesWritten3_pos kernel3_thin_doubles','sharp iff condition')
c('C33','proved','stencilZero2_global stencilZero2_decomposition_independent stencil2_over_global','kernel = any function reading at most one cell along the axes; pystencils loop bounds trusted')
c('C34','proved','stencilAdd2_global','blocks of at least 2k cells; also next to physical boundaries when the ghost cells there hold the continuation')
c('C35','proved','stencilZero3_global stencilZero3_decomposition_independent stencil3_over_global stencilAdd3_global','')
c('C36','proved','kernel2_ignores_inflight stencil2_schedule_independent kernel3_ignores_inflight kernel3_over_ignores_inflight stencil3_over_schedule_independent stencil3_schedule_independent curl_ghost_columns_race','inner cells for the curl (its ghost columns do depend on in-flight data: curl_ghost_columns_race), whole arrays for the others')
c('C37','proved','zeroSides2_inner zeroSides3_inner','iff')
c('C38','proved','diffusionRun2_global diffusionRun3_global diffusionVecRun3_global diffusionStep2_global diffusionStep3_global diffusionVecStep3_global','any number of steps, by induction')
c('C39','proved','advectionStep2_buffer_irrelevant advectionStep2_global advectionStep2_holds advectionRun2_global advectionStep3_buffer_irrelevant advectionStep3_global advectionStep3_velocity advectionVecStep3_global','')
c('C61','proved','kernel2_ghost_kept ghost_cells_written_iff stencilAdd2_physical_ghost_depends kernel3_ghost_kept ghost_cells_written3_iff','the dependence is a defect of the code, shown by a witness')
c('C40','proved','filterCheck_ok_iff multiplicativeFilter_global convolutionFilter_global vectorMultiplicative_global vectorFilter_componentwise serialMultiplicative_const serialMultiplicative_zone multiplicativeFilter_order_zero convolutionFilter_order_zero',
  'Order 0 does not switch the filter off: the stale flux buffer is subtracted (order_zero theorems).')
c('C41','proved','penCheck_ok_iff penalise_width_zero penalise2_global penalise3_global penaliseVec3_componentwise serialPen1_zones serialPen2_middle serialPen3_middle serialPen2_edge_zero serialPen1_bound penalise2_raises_iff penalise2_thin_differs',
  'For blocks narrower than the zone the result depends on the decomposition (penalise2_thin_differs).')
c('C42','proved','copyTo2_correct copyTo2_zero_pads doubling2_matched copyTo2_periodic_odd_unmatched','')
c('C43','proved','copyFrom2_correct doubling2_roundtrip','')
c('C44','proved','doubling3_no_error doubling3_matched copyTo3_correct copyTo3_zero_pads copyFrom3_correct doubling3_roundtrip copyTo3_error_iff three_slabs_2D_ok_3D_error copyTo3_periodic_odd_unmatched','')
c('C45','proved','doublingInit2_valueError_iff doublingInit2_accepts doublingInit3_valueError_iff doublingInit3_accepts','')
c('C46','proved','solve2_correct solve2_history solve3_correct solve3_history vectorSolve3_correct','real arithmetic; mpi4py-fft assumed to be the DFT of the assembled array')
c('C62','proved','greens2_assembled greens3_assembled','')
c('C63','proved','solve2_correct solve3_correct idft_mul freeSolution2_linear freeSolution2_point_source freeSolution3_linear freeSolution3_point_source freeSolution2_reciprocal freeSolution3_reciprocal','')
c('C47','proved','eul_roundtrip2 eul_roundtrip3 addEulField_error_iff addEulerian_undefined load_ok_params load_grid_mismatch load_refused_overwrites save_after_failed_add','file and h5py/NumPy assignment semantics are trusted')
c('C48','proved','lag_roundtrip lag_shared_name lag_square_vector lag_default_name_collision lag_grid_only_not_loaded addLagrangian_refuses rodSave_content rod_load_not_restoring','')
c('C49','proved','echo_iff silent_rank console_once level_shared formatLine_suffix formatLine_says','')
c('C50','proved','close_leaves_every_second close_leaves_count logRun_wf stale_logfile duplicate_console','the property fails in the code; the theorems say exactly how')
c('C64','proved','xdmfName_ne_iff','')
c('C65','proved','sim2_run sim2_decomposition_independent simLoop2_holds initFrom2_holds scheds2_exist','real arithmetic; kernels are parameters (any stencil with the stated reach); forcing must vanish in the outermost cells')
c('C51','proved','stableDt2_global stableDt2_state stableDt3_global stableDt3_state','real arithmetic')
c('C52','proved','maxVorticity2_global maxVorticity2_noGhost maxVorticity3_global maxVorticity3_passive','')
c('C53','proved','timeStep2_time drive2_time timeStep3_time drive3_time','real arithmetic')
c('C54','proved','forcing2_consumed zeroForcing2_eq_ns nsStep2_forcing forcing3_consumed zeroForcing3_eq_ns nsStep3_forcing','')
c('C55','proved','position2_cells position2_shared position2_gridX position3_cells position3_shared position3_gridX','real arithmetic')
c('C57','proved','simCheck2_valueError_iff simCheck2_ok_iff attrs2_complete_iff timeStep2_misconfigured simCheck3_ok_iff simCheck3_error timeStep3_noFreeStream','')
c('C58','proved','divNorm3_global divNorm3_passive divNorm3_state','real arithmetic; the divergence kernel is a parameter with reach 1')
c('C66','proved','sim3_run sim3_decomposition_independent simLoop3_holds initFrom3_holds scheds3_exist','real arithmetic; kernels are parameters (any stencil with the stated reach); forcing must vanish in the outermost cells; penalty zone of at least one cell')
c('C67','proved','timeStep3_iff_even flowVelocity3_outcome callSolve3_odd callSolve3_even','')
c('C68','proved','coupled2_run coupled2_decomposition_independent cRun2_holds fullInteract2_holds lagInteract2_holds tracked2_single tracked2_still','real arithmetic; kernels are parameters; the forcing grid (positions and velocities of the nodes) is up to the driver program; hypothesis Tracked2 excludes the migrations which the count comparison misses (C19)')
c('C69','proved','ibInit2_ok_iff ibInit3_ok_iff','')
c('C70','proved','coupled3_run coupled3_decomposition_independent cRun3_holds fullInteract3_holds lagInteract3_holds tracked3_single tracked3_still','real arithmetic; kernels are parameters; the forcing grid is up to the driver program; hypothesis Tracked3 excludes the migrations which the count comparison misses (C19)')
c('C71','proved','rest2_run rest3_run refRun2_rest refRun3_rest','kernels are parameters that vanish on zero fields')
c('C72','proved','gather2_schedule scatter2_schedule gatherVec2_schedule scatterVec2_schedule gather3_schedule scatter3_schedule gatherVec3_schedule scatterVec3_schedule gatherLag_schedule scatterLag_schedule computes_of_sequence crossing_sends_hang','MPI semantics of blocking calls as in Verif.Choreo')
c('C73','proved','vbfInteract_schedule vbfRun_schedule vbf_force_schedule','mode assume_data_locality = False; a collective completes when all ranks have entered it')
c('C74','proved','flowVel2_default spread2_default flowVel3_default spread3_default cosDelta_window','real arithmetic')
c('C75','proved','restart2 restart2_passive restart2_default_width_inexact restart3 restart3_passive saveload2 saveload3','real arithmetic; kernels are parameters; the penalty widths for which a restart is exact are hypotheses, restart2_default_width_inexact shows that the default width is not among them')
c('C76','proved','interact2_balance interact3_balance','real arithmetic; cosine delta kernel; node positions stay inside the domain, as the interpolation itself requires')
c('C77','proved','stableDt2_limits stableDt3_limits','real arithmetic; the Allreduce result is modelled as the same on all ranks')
c('C78','proved','vbf_locality vbf_locality_law locality_deviation locality_deviation_wrong ibInit2_locality lagInteract2_locality fullInteract2_locality ibInit3_locality lagInteract3_locality fullInteract3_locality','real arithmetic; nodes stay at home is a hypothesis, as the option assumes it')
c('C79','proved','pointwise2_serial pointwise2_exchange brinkmann2_serial brinkmannVec2_serial charFunc2_serial pointwise3_serial pointwise3_exchange brinkmann3_serial brinkmannVec3_serial charFunc3_serial','the function of the values in one cell is a parameter')
c('C80','proved','topology2_given topology3_given topology2_default topology3_default default2_ok_iff default3_ok_iff odd_ranks_fail3 pow2_ranks_work3','MPI_Dims_create is specified by what the MPI standard promises and may return any such result')
c('C81','proved','xdmfEul_describes xdmfEul_params xdmfLag_describes xdmfWrites_ok xdmfName_inj xdmf_files xdmf_two_masters xdmf_grid_named_eulerian','an XDMF file is the tuple of values its template is filled with; a file write is atomic')
c('C82','proved','exec_append layers_exec layers_noStuck run_bound exch_exec exchLayer_exec collLayer_exec pieces_terminate pieces_exec_exists simLoop2_async sim2_async','real arithmetic; kernels are parameters; a collective operation is a packet from every rank to every rank; each rank holds whole Fourier arrays')
c('C83','proved','simLoop3_async sim3_async','as C82, with the Laplacian filter; real arithmetic; kernels are parameters; a collective operation is a packet from every rank to every rank; each rank holds whole Fourier arrays')
c('C84','proved','forcing_roundtrip forcing_save_refused interact_global vbf_restart vbf_restart_stale vbf_restart_stale_example crestart3 crestart2','the shipped example is 3D; 2D is the same calls with the 2D simulator; real arithmetic; kernels are parameters; the Lagrangian positions are supplied by the driver')
c('C85','proved','vbfRun_async vbf_force_async Fine.noStuck Fine.result Fine.ends Fine.exists_end rounds_sound items_exec own_flags_hang','a gather, broadcast or allreduce is a packet from each rank to each rank that needs it; the Eulerian velocity interpolation is a parameter of each rank, spreading is not part of this claim; real arithmetic replaced by any ring')
c('C86','proved','coupled2_async cRounds2 gsItems2_exec startsC2_exists exFollows2','as C82 and C85: real arithmetic; kernels are parameters; a collective operation is a packet from each rank to each rank that needs it; each rank holds whole Fourier arrays; bodies stay inside and remappings are noticed (hypotheses of C68)')
c('C87','proved','coupled3_async cRounds3 divPiece3_exec norm3_exec gsItems3_exec startsC3_exists exFollows3','as C86 (hypotheses of C70: even rank topology, viscosity not negative)')
c('C88','proved','localDeviation_master localDeviation_others localDeviation_alone frobNorm_rank rankSquares_zero','negative on ranks other than the master: division by zero nodes. NumPy division by zero modelled as infinity or not-a-number')
c('C89','proved','plotter_files plotter_raises stale_bar title_lost shownAfter_tidy exPlot_quiet','matplotlib assumed: contourf copies its data and raises TypeError below 2 x 2, cla removes artists and title but no colour bar, Colorbar.remove removes that bar; levels, colour map, aspect not modelled')
c('C90','proved','circulation2 circulation3 run2_total run3_kept gFilter_total','kernels of the sopht package are outside the repository: assumed central differences and (advection) any flux form with stencil -1..2 per face; real arithmetic')
c('C91','proved','diffusion2_maximum diffusion3_maximum diff2_bounds diff3_bounds','kernels of the sopht package are outside the repository: assumed central differences and (advection) any flux form with stencil -1..2 per face; real arithmetic')
c('C92','proved','velocity2_solenoidal velocity3_solenoidal','kernels of the sopht package are outside the repository: assumed central differences and (advection) any flux form with stencil -1..2 per face; real arithmetic; within two cells of the sides the velocity is set to zero on the outermost layer, so the claim is false there')
c('C93','proved','vorticity3_solenoidal centralDiv3_curl centralDiv3_inv gFilter_inv','kernels of the sopht package are outside the repository: assumed central differences and (advection) any flux form with stencil -1..2 per face; real arithmetic')
c('C94','proved','sim2_mirror_x sim2_mirror_y sim2_swap_axes','kernels of the sopht package are outside the repository: assumed central differences and (advection) one one-dimensional scheme along all axes that prefers no direction; real arithmetic; boundary zone at most half the grid')
c('C95','proved','sim3_mirror sim3_swap_xy sim3_swap_yz filter_prefers_axes','kernels of the sopht package are outside the repository: assumed central differences and (advection) one one-dimensional scheme along all axes that prefers no direction; real arithmetic; boundary zone at most half the grid')
c('C96','proved','timeLoop2_ends timeLoop2_passive timeLoop2_same timeLoop3_ends timeLoop3_passive timeLoop3_same While.unique',"Python's while as an inductive relation with at most one result; velocities of Navier-Stokes runs are assumed bounded (a bound is not a consequence of the code; an example shows that steps may otherwise shrink for ever); real arithmetic, so a time step too small to change a floating point clock is outside")
c('C97','proved','due_iff timeLoop2_snapshots timeLoop3_snapshots While.snapshots Snapshots.gaps Snapshots.recent Snapshots.count','the snapshots themselves (plots, files, log lines) do not change the simulator: C47, C48, C89; real arithmetic')
c('C98','proved','numberOf_name fileName_injective fileName_sorted fileName_collision fileName_unsorted',"Python's % formatting of a float with d cuts the fraction off (modelled); time as a real number")
c('C99','proved','restart_sound restart_iff crash_loses_all stale_blocks','files are emptied and then filled, unreadable in between; ea.save_state/load_state of PyElastica (outside the repository) as one file system_0.npz with its time, for the one rod of the example; exceptions on the master only are exceptions of the restart; that loading returns what was saved is C47 and C48, that the resumed run continues is C84')
c('C100','proved','rodSteps_pos localDt_sum localDt_small localDt_large damper_time subSteps2_clock rodLoop2_clocks rodLoop2_body_clock rodRun2 subSteps3_clock rodLoop3_clocks rodLoop3_body_clock rodRun3','the time stepper and the rod of PyElastica (outside the repository) are arbitrary functions that ask the interactor for forces once per sub-step, as PositionVerlet does; real arithmetic')
c('C101','proved','ioOrigin2_spec ioOrigin3_spec rodOrigin3_shifted','real arithmetic')
c('C102','proved','l2Error2_global linfError2_global l2Error3_global linfError3_global','real arithmetic (in floating point the sums may differ in the last digits)')
c('C103','proved','lambOseen_advDiff lambOseen_velocity pointSource_advDiff lambOseen_start pointSource_exact_reported pointSource_start','derivatives of Mathlib (HasDerivAt); real arithmetic; nothing is claimed about convergence of the discretisation to these solutions')
c('C104','proved','fixedLoop2_ends fixedLoop2_drag fixedLoop2_start fixedLoop2_same fixedLoop3_ends fixedLoop3_drag fixedLoop3_start fixedLoop3_same','recorded times before division by the time scale; plotting, logging and IO in the loop are those of C47, C48, C89 and do not change the state; real arithmetic')
c('C105','proved','scalar2_moments scalar3_moments','for advection kernels in flux form that use a weighted average of the four cells around a face (exKern2_stream, exKern3_stream: the third order upwind kernel of sopht does) and the five/seven point Laplacian; real arithmetic')
c('C106','proved','coupled2_impulse fixedLoop2_impulse coupled3_impulse fixedLoop3_impulse run3_impulse','kernels: central differences for the vorticity update, seven point Laplacian (C90); the whole step is 3D only, since in 2D the momentum carried by the upwind flux is not a sum of u x w; real arithmetic')
c('C107','proved','sim2_placement sim2_placement_fixed sim3_placement sim3_placement_fixed','sim*_placement: any rule for the time steps provided the clocks advance alike (stable time steps look at the largest velocity of the grid, which differs between grids); the margin is the reach of a step (3 cells, 3D: + filter order) per step; kernels change nothing where the field they carry vanishes (exKern2_quiet, exKern3_quiet); real arithmetic')
c('C108','proved','lambOseen_report lambOseen_same pointSource_report',"expected values are defined on the global grid (LambArgs.expected, PointArgs.expected); facts of the code that show in them: the Lamb-Oseen driver starts with the velocity of t_end and without the free stream, and compares at the end with a velocity computed anew without the free stream; the point source driver compares with the analytical field at t_start (moved centre). Titles are an arbitrary function of the time; 0/0 at the vortex centre is 0 in the model (nan in NumPy); the plotter's messages are run separately from the simulator's; the video (os.system) is not modelled; origin and dx of the files are arbitrary here (C101 has their values); real arithmetic")
c('C109','proved','rodCase2_report rodCase2_same rodCase3_report rodCase3_same','expected values: refRods2/3, refShot2, refLog3 on the global grid. The body is an arbitrary stepper (positions, velocities, the step before, with and after the forces), that of the master rank; PyElastica itself is not modelled. Assumed of the run on the global grid: the body stays inside until t_end and the ranks notice when its nodes change hands (RodStep2/3, as in C65/C66). The positions plotted are those of the last interaction, after which the body has not moved. In 3D a snapshot exchanges ghost cells of the vorticity (rodLook3), so it writes to the arrays. Files written at a snapshot: C47/C101; pictures: C89. Real arithmetic')
c('C110','proved','diffusion2_dissipates diffusion2_order diffusion3_dissipates diffusion3_order penalty_sq penalty_abs penalty_above','the diffusion kernel is the five-point (2D) or seven-point (3D) Laplacian and advection by zero velocity is zero; in 2D the penalty zone belongs to the Navier-Stokes steps only. In the outermost cells the code does not diffuse, so a field that does not start at zero there could gain from them. Real arithmetic')
c('C111','proved','circulation_bodies2 solenoidal_bodies2 circulation_bodies3 solenoidal_bodies3','kernels: central differences, five/seven point Laplacian, advection in flux form (C90, C92, C93); programs as in C68 and C70 (bodies inside the domain, remapping noticed). Real arithmetic. exBudget2 and exBudget3 meet all hypotheses with a body across a rank boundary')
c('C112','proved','coupled2_placement coupled3_placement','time steps given by the driver (stable time steps look at the largest velocity of the whole grid, which differs between grids); programs as in C68 and C70, bodies off the outermost cells whenever forces are asked for (Clear2, Clear3) and off the reach of the flow steps when they force the flow (Apart2, Apart3); kernels change nothing where the field they carry vanishes; real arithmetic. exPlace2 and exPlace3 meet all hypotheses with a body across rank boundaries on both grids')
c('C113','proved','copies2_run copies3_run','the body and its time stepper (PyElastica) are arbitrary functions which get the contents of body_flow_forces and body_flow_torques; figures, files and the total force of the log line are left out; the body stays inside and remappings are noticed in the iterations that are run (RodStep2, RodStep3, see C20); real arithmetic')
c('C114','proved','couple_message couple_numbers couple_no_master couple_shared_arrays couple_one_array couple_used','arrays have one entry; dx > 0 for the message; the broadcast is modelled by its result')
c('C115','proved','sim2_units sim3_units coupled2_units coupled3_units dt3_units_fails','kernels of the sopht package: diffusion, curls and divergence are central differences, advection is homogeneous in factor, field and velocity (Homog2, Homog3); bodies stay inside and remappings are noticed on both decompositions (C20), stated for the first run only; a 3D Navier-Stokes flow has no passive scalar, the array of the model is converted along; real arithmetic')
c('C116','proved','cylinder2_starts cylinder2_run cylinder2_same cylinder2_default sphere3_starts sphere3_run sphere3_same sphere3_default Snapshots.unique','the nodes of the forcing grids (sopht package) lie on the body; kernels vanish on zero fields; grid wide enough: 56 cells along x and 6 gx + 500 < 100 gy for the cylinder, 9 cells along y and z and 4 min(gz, gy) + 50 < 5 gx for the sphere; plots, videos and files are left out; real arithmetic')
c('C117','proved','machine2_run machine2_same machine3_run machine3_same rounded_sound rounded_sums_differ machStep2_exact machStable2_exact machStep3_exact machStable3_exact','numbers are an abstract type, ordered linearly where the stable step is used (no NaN); kernels see neighbours along the axes only (Num.Local) and are trusted to compute the same function of these in every pass and on every rank; assigned and initial arrays hold the same numbers on both decompositions; with exact arithmetic the model is the simulator model of the other claims (the *_exact theorems)')
c('C118','proved','logfile_complete logfile_kept logfile_whole_lines logfile_step logfile_bounded logfile_ends logfile_stuck logfile_lines logger_line_count logProgram_ends logfile_twice_broken','trusted: Write_shared in atomic mode writes at the shared pointer and advances it in one step, every opening has its own shared pointer which starts at the end of the file, MPI.File.Open waits for all ranks; closing is at the end of the program only (C50 for remove_and_close_all_handlers); console output not modelled')
c('C119','proved','flowRod_numbers rodNodes2_eq flowRod_starts flowRod_run flowRod_same flowRod_default',"pyelastica (the motion of the rod) is any function of the rod's properties; forcing kernels any local ones; hypotheses until the final time: velocities bounded, rod inside, ranks notice when nodes change hands (C19); plots, video, csv formatting not modelled")
c('C120','proved','onRod3_iff flowRod3_numbers flowRod3_starts flowRod3_run flowRod3_same flowRod3_default',"pyelastica (the motion of the rod) is any function of the rod's properties; the nodes of the forcing grid are any on the rod; forcing kernels any local ones; hypotheses until the final time: velocities bounded, rod inside, ranks notice when nodes change hands (C19); plots, csv formatting not modelled. Finding: the comment says Froude = g L / U^2, the code uses the diameter")
c('C121','proved','onSpin_iff flowSpin_numbers flowSpin_starts flowSpin_run flowSpin_same flowSpin_default flowSpin_files',"pyelastica (the motion of the rod) is any function of the rod's properties; the nodes of the forcing grid are any on the rod; forcing kernels any local ones; hypotheses until the final time: velocities bounded, rod inside, ranks notice when nodes change hands (C19); restarts are in C84 and C99, contents of files in C47 and C81; the model's line also has the total force, which this driver does not compute")
c('C122','proved','restart3_still crestart3 restart3_free_stream_inexact restart3_moving_beyond_inexact','real arithmetic; kernels are parameters; crestart3 is the statement with bodies, its hypothesis on the penalty zone or the free stream covers C84 and C122')
