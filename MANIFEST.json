{
 "claims": [
  {
   "property": "C01",
   "status": "proved",
   "theorems": [
    "Sopht.decomposition2_partition",
    "Sopht.decomposition2_inside",
    "Sopht.decomposition3_partition",
    "Sopht.decomposition3_inside"
   ],
   "note": ""
  },
  {
   "property": "C02",
   "status": "proved",
   "theorems": [
    "Sopht.construct2_refuses_iff",
    "Sopht.construct2_ok",
    "Sopht.construct2_total",
    "Sopht.construct3_refuses_iff",
    "Sopht.construct3_ok",
    "Sopht.construct3_total"
   ],
   "note": ""
  },
  {
   "property": "C03",
   "status": "proved",
   "theorems": [
    "Sopht.neighbours2_mirror",
    "Sopht.neighbours3_mirror",
    "Sopht.diagonal2_mirror",
    "Sopht.diagonal3_mirror",
    "Sopht.neighbour_axis",
    "Sopht.rank2_bijection",
    "Sopht.rank3_bijection"
   ],
   "note": ""
  },
  {
   "property": "C04",
   "status": "proved",
   "theorems": [
    "Sopht.ghost2_all_matched",
    "Sopht.ghost3_all_matched"
   ],
   "note": ""
  },
  {
   "property": "C05",
   "status": "proved",
   "theorems": [
    "Sopht.exchange2_correct",
    "Sopht.exchange2_inner_kept",
    "Sopht.exchange2_edges",
    "Sopht.exchange2_columns"
   ],
   "note": ""
  },
  {
   "property": "C06",
   "status": "proved",
   "theorems": [
    "Sopht.exchange2_corners",
    "Sopht.exchange2_correct"
   ],
   "note": ""
  },
  {
   "property": "C07",
   "status": "proved",
   "theorems": [
    "Sopht.exchange2_global_window",
    "Sopht.exchange2_global_window_periodic",
    "Sopht.exchange3_global_window",
    "Sopht.exchange3_global_window_periodic"
   ],
   "note": ""
  },
  {
   "property": "C08",
   "status": "proved",
   "theorems": [
    "Sopht.exchange3_correct",
    "Sopht.exchange3_inner_kept",
    "Sopht.exchange3_faces"
   ],
   "note": ""
  },
  {
   "property": "C09",
   "status": "proved",
   "theorems": [
    "Sopht.exchange3_full_direction",
    "Sopht.exchange3_faces_only_keeps_edges"
   ],
   "note": ""
  },
  {
   "property": "C10",
   "status": "proved",
   "theorems": [
    "Sopht.exchange2_idempotent",
    "Sopht.vecExchange2_componentwise",
    "Sopht.exchange3_idempotent",
    "Sopht.vecExchange3_componentwise"
   ],
   "note": ""
  },
  {
   "property": "C11",
   "status": "proved",
   "theorems": [
    "Sopht.ghostCommCheck_accepts_iff",
    "Sopht.ghostCommCheck_unsound",
    "Sopht.ghostCommCheck_complete",
    "Sopht.fieldCommCheck_accepts_iff",
    "Sopht.fieldCommCheck_unsound"
   ],
   "note": "The code accepts negative and zero ghost sizes; the theorems state exactly what is accepted and exhibit the accepted bad values."
  },
  {
   "property": "C12",
   "status": "proved",
   "theorems": [
    "Sopht.exchange2_thin_block_wrong",
    "Sopht.exchange2_correct",
    "Sopht.exchange2_global_window",
    "Sopht.exchange3_correct",
    "Sopht.exchange3_global_window"
   ],
   "note": ""
  },
  {
   "property": "C13",
   "status": "proved",
   "theorems": [
    "Sopht.scatter2_correct",
    "Sopht.scatterVec2_componentwise",
    "Sopht.scatter3_correct",
    "Sopht.scatterVec3_componentwise"
   ],
   "note": ""
  },
  {
   "property": "C14",
   "status": "proved",
   "theorems": [
    "Sopht.gather2_correct",
    "Sopht.gather2_scatter2",
    "Sopht.scatter2_gather2",
    "Sopht.gatherVec2_componentwise",
    "Sopht.gather3_correct",
    "Sopht.gather3_scatter3",
    "Sopht.scatter3_gather3",
    "Sopht.gatherVec3_componentwise",
    "Sopht.slaveOrder2_exists",
    "Sopht.slaveOrder3_exists"
   ],
   "note": ""
  },
  {
   "property": "C15",
   "status": "proved",
   "theorems": [
    "Sopht.mapping2_owner",
    "Sopht.mapping3_owner",
    "Sopht.lag_node_one_owner",
    "Sopht.lag_counts_sum",
    "Sopht.lag_counts_sum_topology"
   ],
   "note": ""
  },
  {
   "property": "C16",
   "status": "proved",
   "theorems": [
    "Sopht.mapping2_aborts_iff",
    "Sopht.mapping3_aborts_iff",
    "Sopht.mapping2_below_accepted",
    "Sopht.mapping2_outside_not_refused"
   ],
   "note": ""
  },
  {
   "property": "C17",
   "status": "proved",
   "theorems": [
    "Sopht.scatterLag_correct",
    "Sopht.gatherLag_correct",
    "Sopht.gatherLag_scatterLag",
    "Sopht.scatterLag_gatherLag",
    "Sopht.slaveSet_exists"
   ],
   "note": ""
  },
  {
   "property": "C18",
   "status": "proved",
   "theorems": [
    "Sopht.vbf_force_law"
   ],
   "note": ""
  },
  {
   "property": "C19",
   "status": "proved",
   "theorems": [
    "Sopht.vbf_history",
    "Sopht.vbf_position_mismatch",
    "Sopht.vbf_time"
   ],
   "note": ""
  },
  {
   "property": "C20",
   "status": "proved",
   "theorems": [
    "Sopht.vbf_history",
    "Sopht.vbf_swap_misattributes",
    "Sopht.vbf_swap_wrong"
   ],
   "note": ""
  },
  {
   "property": "C21",
   "status": "proved",
   "theorems": [
    "Sopht.elCheck_ok_iff",
    "Sopht.window2_inside",
    "Sopht.window3_inside",
    "Sopht.window2_outside"
   ],
   "note": ""
  },
  {
   "property": "C22",
   "status": "proved",
   "theorems": [
    "Sopht.interp2_decomposition_free",
    "Sopht.interp2_decomposition_free_periodic",
    "Sopht.interp3_decomposition_free",
    "Sopht.interp3_decomposition_free_periodic"
   ],
   "note": ""
  },
  {
   "property": "C23",
   "status": "proved",
   "theorems": [
    "Sopht.spread2_decomposition_free",
    "Sopht.spread3_decomposition_free",
    "Sopht.spread2_periodic",
    "Sopht.spread3_periodic"
   ],
   "note": "non-periodic: contributions to the cell; periodic: contributions to all images of the cell"
  },
  {
   "property": "C24",
   "status": "proved",
   "theorems": [
    "Sopht.ghostSum2_correct",
    "Sopht.ghostSum3_correct",
    "Sopht.ghostSum2_global",
    "Sopht.ghostSum3_global",
    "Sopht.ghostSum2_wrapped",
    "Sopht.ghostSum3_wrapped",
    "Sopht.ghostSum2_thin_block_wrong"
   ],
   "note": ""
  },
  {
   "property": "C25",
   "status": "proved",
   "theorems": [
    "Sopht.ghostSum2_total",
    "Sopht.ghostSum2_conserves",
    "Sopht.ghostSum3_total",
    "Sopht.ghostSum3_conserves"
   ],
   "note": ""
  },
  {
   "property": "C26",
   "status": "proved",
   "theorems": [
    "Sopht.ghostSum2_schedule",
    "Sopht.ghostSum3_schedule",
    "Sopht.ghostSum2_no_deadlock",
    "Sopht.ghostSum3_no_deadlock",
    "Sopht.ghostSum_no_deadlock_buffered",
    "Sopht.ghostSum_periodic_deadlock"
   ],
   "note": ""
  },
  {
   "property": "C27",
   "status": "proved",
   "theorems": [
    "Sopht.cosine_sum2",
    "Sopht.cosine_sum3",
    "Sopht.cosine_constant2",
    "Sopht.cosine_constant3",
    "Sopht.cosine_conserves2",
    "Sopht.cosine_conserves3"
   ],
   "note": ""
  },
  {
   "property": "C28",
   "status": "proved",
   "theorems": [
    "Sopht.peskin_sum2",
    "Sopht.peskin_sum3",
    "Sopht.peskin_constant2",
    "Sopht.peskin_constant3",
    "Sopht.peskin_conserves2",
    "Sopht.peskin_conserves3"
   ],
   "note": ""
  },
  {
   "property": "C29",
   "status": "proved",
   "theorems": [
    "Sopht.interp_spread_adjoint2",
    "Sopht.interp_spread_adjoint3",
    "Sopht.interp_spread_adjoint2_periodic",
    "Sopht.interp_spread_adjoint3_periodic"
   ],
   "note": "non-periodic: nodes whose window lies in the domain; periodic: every node"
  },
  {
   "property": "C30",
   "status": "proved",
   "theorems": [
    "Sopht.checkSupport_error_iff",
    "Sopht.genFieldKernel3_error_iff"
   ],
   "note": "iff, for every ghost size, support and (3D) field type"
  },
  {
   "property": "C31",
   "status": "proved",
   "theorems": [
    "Sopht.passes2_exactly_once_iff",
    "Sopht.timesWritten2_pos",
    "Sopht.kernel2_thin_doubles"
   ],
   "note": "sharp iff condition; double counting on thin blocks proved for every block, not only a witness"
  },
  {
   "property": "C32",
   "status": "proved",
   "theorems": [
    "Sopht.passes3_exactly_once_iff",
    "Sopht.timesWritten3_pos",
    "Sopht.kernel3_thin_doubles"
   ],
   "note": "sharp iff condition"
  },
  {
   "property": "C33",
   "status": "proved",
   "theorems": [
    "Sopht.stencilZero2_global",
    "Sopht.stencilZero2_decomposition_independent",
    "Sopht.stencil2_over_global"
   ],
   "note": "kernel = any function reading at most one cell along the axes; pystencils loop bounds trusted"
  },
  {
   "property": "C34",
   "status": "proved",
   "theorems": [
    "Sopht.stencilAdd2_global"
   ],
   "note": "blocks of at least 2k cells; also next to physical boundaries when the ghost cells there hold the continuation"
  },
  {
   "property": "C35",
   "status": "proved",
   "theorems": [
    "Sopht.stencilZero3_global",
    "Sopht.stencilZero3_decomposition_independent",
    "Sopht.stencil3_over_global",
    "Sopht.stencilAdd3_global"
   ],
   "note": ""
  },
  {
   "property": "C36",
   "status": "proved",
   "theorems": [
    "Sopht.kernel2_ignores_inflight",
    "Sopht.stencil2_schedule_independent",
    "Sopht.kernel3_ignores_inflight",
    "Sopht.kernel3_over_ignores_inflight",
    "Sopht.stencil3_over_schedule_independent",
    "Sopht.stencil3_schedule_independent",
    "Sopht.curl_ghost_columns_race"
   ],
   "note": "inner cells for the curl (its ghost columns do depend on in-flight data: curl_ghost_columns_race), whole arrays for the others"
  },
  {
   "property": "C37",
   "status": "proved",
   "theorems": [
    "Sopht.zeroSides2_inner",
    "Sopht.zeroSides3_inner"
   ],
   "note": "iff"
  },
  {
   "property": "C38",
   "status": "proved",
   "theorems": [
    "Sopht.diffusionRun2_global",
    "Sopht.diffusionRun3_global",
    "Sopht.diffusionVecRun3_global",
    "Sopht.diffusionStep2_global",
    "Sopht.diffusionStep3_global",
    "Sopht.diffusionVecStep3_global"
   ],
   "note": "any number of steps, by induction"
  },
  {
   "property": "C39",
   "status": "proved",
   "theorems": [
    "Sopht.advectionStep2_buffer_irrelevant",
    "Sopht.advectionStep2_global",
    "Sopht.advectionStep2_holds",
    "Sopht.advectionRun2_global",
    "Sopht.advectionStep3_buffer_irrelevant",
    "Sopht.advectionStep3_global",
    "Sopht.advectionStep3_velocity",
    "Sopht.advectionVecStep3_global"
   ],
   "note": ""
  },
  {
   "property": "C40",
   "status": "proved",
   "theorems": [
    "Sopht.filterCheck_ok_iff",
    "Sopht.multiplicativeFilter_global",
    "Sopht.convolutionFilter_global",
    "Sopht.vectorMultiplicative_global",
    "Sopht.vectorFilter_componentwise",
    "Sopht.serialMultiplicative_const",
    "Sopht.serialMultiplicative_zone",
    "Sopht.multiplicativeFilter_order_zero",
    "Sopht.convolutionFilter_order_zero"
   ],
   "note": "Order 0 does not switch the filter off: the stale flux buffer is subtracted (order_zero theorems)."
  },
  {
   "property": "C41",
   "status": "proved",
   "theorems": [
    "Sopht.penCheck_ok_iff",
    "Sopht.penalise_width_zero",
    "Sopht.penalise2_global",
    "Sopht.penalise3_global",
    "Sopht.penaliseVec3_componentwise",
    "Sopht.serialPen1_zones",
    "Sopht.serialPen2_middle",
    "Sopht.serialPen3_middle",
    "Sopht.serialPen2_edge_zero",
    "Sopht.serialPen1_bound",
    "Sopht.penalise2_raises_iff",
    "Sopht.penalise2_thin_differs"
   ],
   "note": "For blocks narrower than the zone the result depends on the decomposition (penalise2_thin_differs)."
  },
  {
   "property": "C42",
   "status": "proved",
   "theorems": [
    "Sopht.copyTo2_correct",
    "Sopht.copyTo2_zero_pads",
    "Sopht.doubling2_matched",
    "Sopht.copyTo2_periodic_odd_unmatched"
   ],
   "note": ""
  },
  {
   "property": "C43",
   "status": "proved",
   "theorems": [
    "Sopht.copyFrom2_correct",
    "Sopht.doubling2_roundtrip"
   ],
   "note": ""
  },
  {
   "property": "C44",
   "status": "proved",
   "theorems": [
    "Sopht.doubling3_no_error",
    "Sopht.doubling3_matched",
    "Sopht.copyTo3_correct",
    "Sopht.copyTo3_zero_pads",
    "Sopht.copyFrom3_correct",
    "Sopht.doubling3_roundtrip",
    "Sopht.copyTo3_error_iff",
    "Sopht.three_slabs_2D_ok_3D_error",
    "Sopht.copyTo3_periodic_odd_unmatched"
   ],
   "note": ""
  },
  {
   "property": "C45",
   "status": "proved",
   "theorems": [
    "Sopht.doublingInit2_valueError_iff",
    "Sopht.doublingInit2_accepts",
    "Sopht.doublingInit3_valueError_iff",
    "Sopht.doublingInit3_accepts"
   ],
   "note": ""
  },
  {
   "property": "C46",
   "status": "proved",
   "theorems": [
    "Sopht.solve2_correct",
    "Sopht.solve2_history",
    "Sopht.solve3_correct",
    "Sopht.solve3_history",
    "Sopht.vectorSolve3_correct"
   ],
   "note": "real arithmetic; mpi4py-fft assumed to be the DFT of the assembled array"
  },
  {
   "property": "C47",
   "status": "proved",
   "theorems": [
    "Sopht.eul_roundtrip2",
    "Sopht.eul_roundtrip3",
    "Sopht.addEulField_error_iff",
    "Sopht.addEulerian_undefined",
    "Sopht.load_ok_params",
    "Sopht.load_grid_mismatch",
    "Sopht.load_refused_overwrites",
    "Sopht.save_after_failed_add"
   ],
   "note": "file and h5py/NumPy assignment semantics are trusted"
  },
  {
   "property": "C48",
   "status": "proved",
   "theorems": [
    "Sopht.lag_roundtrip",
    "Sopht.lag_shared_name",
    "Sopht.lag_square_vector",
    "Sopht.lag_default_name_collision",
    "Sopht.lag_grid_only_not_loaded",
    "Sopht.addLagrangian_refuses",
    "Sopht.rodSave_content",
    "Sopht.rod_load_not_restoring"
   ],
   "note": ""
  },
  {
   "property": "C49",
   "status": "proved",
   "theorems": [
    "Sopht.echo_iff",
    "Sopht.silent_rank",
    "Sopht.console_once",
    "Sopht.level_shared",
    "Sopht.formatLine_suffix",
    "Sopht.formatLine_says"
   ],
   "note": ""
  },
  {
   "property": "C50",
   "status": "proved",
   "theorems": [
    "Sopht.close_leaves_every_second",
    "Sopht.close_leaves_count",
    "Sopht.logRun_wf",
    "Sopht.stale_logfile",
    "Sopht.duplicate_console"
   ],
   "note": "the property fails in the code; the theorems say exactly how"
  },
  {
   "property": "C51",
   "status": "proved",
   "theorems": [
    "Sopht.stableDt2_global",
    "Sopht.stableDt2_state",
    "Sopht.stableDt3_global",
    "Sopht.stableDt3_state"
   ],
   "note": "real arithmetic"
  },
  {
   "property": "C52",
   "status": "proved",
   "theorems": [
    "Sopht.maxVorticity2_global",
    "Sopht.maxVorticity2_noGhost",
    "Sopht.maxVorticity3_global",
    "Sopht.maxVorticity3_passive"
   ],
   "note": ""
  },
  {
   "property": "C53",
   "status": "proved",
   "theorems": [
    "Sopht.timeStep2_time",
    "Sopht.drive2_time",
    "Sopht.timeStep3_time",
    "Sopht.drive3_time"
   ],
   "note": "real arithmetic"
  },
  {
   "property": "C54",
   "status": "proved",
   "theorems": [
    "Sopht.forcing2_consumed",
    "Sopht.zeroForcing2_eq_ns",
    "Sopht.nsStep2_forcing",
    "Sopht.forcing3_consumed",
    "Sopht.zeroForcing3_eq_ns",
    "Sopht.nsStep3_forcing"
   ],
   "note": ""
  },
  {
   "property": "C55",
   "status": "proved",
   "theorems": [
    "Sopht.position2_cells",
    "Sopht.position2_shared",
    "Sopht.position2_gridX",
    "Sopht.position3_cells",
    "Sopht.position3_shared",
    "Sopht.position3_gridX"
   ],
   "note": "real arithmetic"
  },
  {
   "property": "C56",
   "status": "proved",
   "theorems": [
    "Sopht.gridDeviation_rms"
   ],
   "note": ""
  },
  {
   "property": "C57",
   "status": "proved",
   "theorems": [
    "Sopht.simCheck2_valueError_iff",
    "Sopht.simCheck2_ok_iff",
    "Sopht.attrs2_complete_iff",
    "Sopht.timeStep2_misconfigured",
    "Sopht.simCheck3_ok_iff",
    "Sopht.simCheck3_error",
    "Sopht.timeStep3_noFreeStream"
   ],
   "note": ""
  },
  {
   "property": "C58",
   "status": "proved",
   "theorems": [
    "Sopht.divNorm3_global",
    "Sopht.divNorm3_passive",
    "Sopht.divNorm3_state"
   ],
   "note": "real arithmetic; the divergence kernel is a parameter with reach 1"
  },
  {
   "property": "C59",
   "status": "proved",
   "theorems": [
    "Sopht.peskin_linear2",
    "Sopht.peskin_linear3"
   ],
   "note": ""
  },
  {
   "property": "C60",
   "status": "proved",
   "theorems": [
    "Sopht.interp_between2",
    "Sopht.interp_between3"
   ],
   "note": ""
  },
  {
   "property": "C61",
   "status": "proved",
   "theorems": [
    "Sopht.kernel2_ghost_kept",
    "Sopht.ghost_cells_written_iff",
    "Sopht.stencilAdd2_physical_ghost_depends",
    "Sopht.kernel3_ghost_kept",
    "Sopht.ghost_cells_written3_iff"
   ],
   "note": "the dependence is a defect of the code, shown by a witness"
  },
  {
   "property": "C62",
   "status": "proved",
   "theorems": [
    "Sopht.greens2_assembled",
    "Sopht.greens3_assembled"
   ],
   "note": ""
  },
  {
   "property": "C63",
   "status": "proved",
   "theorems": [
    "Sopht.solve2_correct",
    "Sopht.solve3_correct",
    "Sopht.idft_mul",
    "Sopht.freeSolution2_linear",
    "Sopht.freeSolution2_point_source",
    "Sopht.freeSolution3_linear",
    "Sopht.freeSolution3_point_source",
    "Sopht.freeSolution2_reciprocal",
    "Sopht.freeSolution3_reciprocal"
   ],
   "note": ""
  },
  {
   "property": "C64",
   "status": "proved",
   "theorems": [
    "Sopht.xdmfName_ne_iff"
   ],
   "note": ""
  },
  {
   "property": "C65",
   "status": "proved",
   "theorems": [
    "Sopht.sim2_run",
    "Sopht.sim2_decomposition_independent",
    "Sopht.simLoop2_holds",
    "Sopht.initFrom2_holds",
    "Sopht.scheds2_exist"
   ],
   "note": "real arithmetic; kernels are parameters (any stencil with the stated reach); forcing must vanish in the outermost cells"
  },
  {
   "property": "C66",
   "status": "proved",
   "theorems": [
    "Sopht.sim3_run",
    "Sopht.sim3_decomposition_independent",
    "Sopht.simLoop3_holds",
    "Sopht.initFrom3_holds",
    "Sopht.scheds3_exist"
   ],
   "note": "real arithmetic; kernels are parameters (any stencil with the stated reach); forcing must vanish in the outermost cells; penalty zone of at least one cell"
  },
  {
   "property": "C67",
   "status": "proved",
   "theorems": [
    "Sopht.timeStep3_iff_even",
    "Sopht.flowVelocity3_outcome",
    "Sopht.callSolve3_odd",
    "Sopht.callSolve3_even"
   ],
   "note": ""
  },
  {
   "property": "C68",
   "status": "proved",
   "theorems": [
    "Sopht.coupled2_run",
    "Sopht.coupled2_decomposition_independent",
    "Sopht.cRun2_holds",
    "Sopht.fullInteract2_holds",
    "Sopht.lagInteract2_holds",
    "Sopht.tracked2_single",
    "Sopht.tracked2_still"
   ],
   "note": "real arithmetic; kernels are parameters; the forcing grid (positions and velocities of the nodes) is up to the driver program; hypothesis Tracked2 excludes the migrations which the count comparison misses (C19)"
  },
  {
   "property": "C69",
   "status": "proved",
   "theorems": [
    "Sopht.ibInit2_ok_iff",
    "Sopht.ibInit3_ok_iff"
   ],
   "note": ""
  },
  {
   "property": "C70",
   "status": "proved",
   "theorems": [
    "Sopht.coupled3_run",
    "Sopht.coupled3_decomposition_independent",
    "Sopht.cRun3_holds",
    "Sopht.fullInteract3_holds",
    "Sopht.lagInteract3_holds",
    "Sopht.tracked3_single",
    "Sopht.tracked3_still"
   ],
   "note": "real arithmetic; kernels are parameters; the forcing grid is up to the driver program; hypothesis Tracked3 excludes the migrations which the count comparison misses (C19)"
  },
  {
   "property": "C71",
   "status": "proved",
   "theorems": [
    "Sopht.rest2_run",
    "Sopht.rest3_run",
    "Sopht.refRun2_rest",
    "Sopht.refRun3_rest"
   ],
   "note": "kernels are parameters that vanish on zero fields"
  },
  {
   "property": "C72",
   "status": "proved",
   "theorems": [
    "Sopht.gather2_schedule",
    "Sopht.scatter2_schedule",
    "Sopht.gatherVec2_schedule",
    "Sopht.scatterVec2_schedule",
    "Sopht.gather3_schedule",
    "Sopht.scatter3_schedule",
    "Sopht.gatherVec3_schedule",
    "Sopht.scatterVec3_schedule",
    "Sopht.gatherLag_schedule",
    "Sopht.scatterLag_schedule",
    "Sopht.computes_of_sequence",
    "Sopht.crossing_sends_hang"
   ],
   "note": "MPI semantics of blocking calls as in Verif.Choreo"
  },
  {
   "property": "C73",
   "status": "proved",
   "theorems": [
    "Sopht.vbfInteract_schedule",
    "Sopht.vbfRun_schedule",
    "Sopht.vbf_force_schedule"
   ],
   "note": "mode assume_data_locality = False; a collective completes when all ranks have entered it"
  },
  {
   "property": "C74",
   "status": "proved",
   "theorems": [
    "Sopht.flowVel2_default",
    "Sopht.spread2_default",
    "Sopht.flowVel3_default",
    "Sopht.spread3_default",
    "Sopht.cosDelta_window"
   ],
   "note": "real arithmetic"
  },
  {
   "property": "C75",
   "status": "proved",
   "theorems": [
    "Sopht.restart2",
    "Sopht.restart2_passive",
    "Sopht.restart2_default_width_inexact",
    "Sopht.restart3",
    "Sopht.restart3_passive",
    "Sopht.saveload2",
    "Sopht.saveload3"
   ],
   "note": "real arithmetic; kernels are parameters; the penalty widths for which a restart is exact are hypotheses, restart2_default_width_inexact shows that the default width is not among them"
  },
  {
   "property": "C76",
   "status": "proved",
   "theorems": [
    "Sopht.interact2_balance",
    "Sopht.interact3_balance"
   ],
   "note": "real arithmetic; cosine delta kernel; node positions stay inside the domain, as the interpolation itself requires"
  },
  {
   "property": "C77",
   "status": "proved",
   "theorems": [
    "Sopht.stableDt2_limits",
    "Sopht.stableDt3_limits"
   ],
   "note": "real arithmetic; the Allreduce result is modelled as the same on all ranks"
  },
  {
   "property": "C78",
   "status": "proved",
   "theorems": [
    "Sopht.vbf_locality",
    "Sopht.vbf_locality_law",
    "Sopht.locality_deviation",
    "Sopht.locality_deviation_wrong",
    "Sopht.ibInit2_locality",
    "Sopht.lagInteract2_locality",
    "Sopht.fullInteract2_locality",
    "Sopht.ibInit3_locality",
    "Sopht.lagInteract3_locality",
    "Sopht.fullInteract3_locality"
   ],
   "note": "real arithmetic; nodes stay at home is a hypothesis, as the option assumes it"
  },
  {
   "property": "C79",
   "status": "proved",
   "theorems": [
    "Sopht.pointwise2_serial",
    "Sopht.pointwise2_exchange",
    "Sopht.brinkmann2_serial",
    "Sopht.brinkmannVec2_serial",
    "Sopht.charFunc2_serial",
    "Sopht.pointwise3_serial",
    "Sopht.pointwise3_exchange",
    "Sopht.brinkmann3_serial",
    "Sopht.brinkmannVec3_serial",
    "Sopht.charFunc3_serial"
   ],
   "note": "the function of the values in one cell is a parameter"
  },
  {
   "property": "C80",
   "status": "proved",
   "theorems": [
    "Sopht.topology2_given",
    "Sopht.topology3_given",
    "Sopht.topology2_default",
    "Sopht.topology3_default",
    "Sopht.default2_ok_iff",
    "Sopht.default3_ok_iff",
    "Sopht.odd_ranks_fail3",
    "Sopht.pow2_ranks_work3"
   ],
   "note": "MPI_Dims_create is specified by what the MPI standard promises and may return any such result"
  },
  {
   "property": "C81",
   "status": "proved",
   "theorems": [
    "Sopht.xdmfEul_describes",
    "Sopht.xdmfEul_params",
    "Sopht.xdmfLag_describes",
    "Sopht.xdmfWrites_ok",
    "Sopht.xdmfName_inj",
    "Sopht.xdmf_files",
    "Sopht.xdmf_two_masters",
    "Sopht.xdmf_grid_named_eulerian"
   ],
   "note": "an XDMF file is the tuple of values its template is filled with; a file write is atomic"
  },
  {
   "property": "C82",
   "status": "proved",
   "theorems": [
    "Sopht.exec_append",
    "Sopht.layers_exec",
    "Sopht.layers_noStuck",
    "Sopht.run_bound",
    "Sopht.exch_exec",
    "Sopht.exchLayer_exec",
    "Sopht.collLayer_exec",
    "Sopht.pieces_terminate",
    "Sopht.pieces_exec_exists",
    "Sopht.simLoop2_async",
    "Sopht.sim2_async"
   ],
   "note": "real arithmetic; kernels are parameters; a collective operation is a packet from every rank to every rank; each rank holds whole Fourier arrays"
  },
  {
   "property": "C83",
   "status": "proved",
   "theorems": [
    "Sopht.simLoop3_async",
    "Sopht.sim3_async"
   ],
   "note": "as C82, with the Laplacian filter; real arithmetic; kernels are parameters; a collective operation is a packet from every rank to every rank; each rank holds whole Fourier arrays"
  },
  {
   "property": "C84",
   "status": "proved",
   "theorems": [
    "Sopht.forcing_roundtrip",
    "Sopht.forcing_save_refused",
    "Sopht.interact_global",
    "Sopht.vbf_restart",
    "Sopht.vbf_restart_stale",
    "Sopht.vbf_restart_stale_example",
    "Sopht.crestart3",
    "Sopht.crestart2"
   ],
   "note": "the shipped example is 3D; 2D is the same calls with the 2D simulator; real arithmetic; kernels are parameters; the Lagrangian positions are supplied by the driver"
  },
  {
   "property": "C85",
   "status": "proved",
   "theorems": [
    "Sopht.vbfRun_async",
    "Sopht.vbf_force_async",
    "Sopht.Fine.noStuck",
    "Sopht.Fine.result",
    "Sopht.Fine.ends",
    "Sopht.Fine.exists_end",
    "Sopht.rounds_sound",
    "Sopht.items_exec",
    "Sopht.own_flags_hang"
   ],
   "note": "a gather, broadcast or allreduce is a packet from each rank to each rank that needs it; the Eulerian velocity interpolation is a parameter of each rank, spreading is not part of this claim; real arithmetic replaced by any ring"
  },
  {
   "property": "C86",
   "status": "proved",
   "theorems": [
    "Sopht.coupled2_async",
    "Sopht.cRounds2",
    "Sopht.gsItems2_exec",
    "Sopht.startsC2_exists",
    "Sopht.exFollows2"
   ],
   "note": "as C82 and C85: real arithmetic; kernels are parameters; a collective operation is a packet from each rank to each rank that needs it; each rank holds whole Fourier arrays; bodies stay inside and remappings are noticed (hypotheses of C68)"
  },
  {
   "property": "C87",
   "status": "proved",
   "theorems": [
    "Sopht.coupled3_async",
    "Sopht.cRounds3",
    "Sopht.divPiece3_exec",
    "Sopht.norm3_exec",
    "Sopht.gsItems3_exec",
    "Sopht.startsC3_exists",
    "Sopht.exFollows3"
   ],
   "note": "as C86 (hypotheses of C70: even rank topology, viscosity not negative)"
  },
  {
   "property": "C88",
   "status": "proved",
   "theorems": [
    "Sopht.localDeviation_master",
    "Sopht.localDeviation_others",
    "Sopht.localDeviation_alone",
    "Sopht.frobNorm_rank",
    "Sopht.rankSquares_zero"
   ],
   "note": "negative on ranks other than the master: division by zero nodes. NumPy division by zero modelled as infinity or not-a-number"
  },
  {
   "property": "C89",
   "status": "proved",
   "theorems": [
    "Sopht.plotter_files",
    "Sopht.plotter_raises",
    "Sopht.stale_bar",
    "Sopht.title_lost",
    "Sopht.shownAfter_tidy",
    "Sopht.exPlot_quiet"
   ],
   "note": "matplotlib assumed: contourf copies its data and raises TypeError below 2 x 2, cla removes artists and title but no colour bar, Colorbar.remove removes that bar; levels, colour map, aspect not modelled"
  },
  {
   "property": "C90",
   "status": "proved",
   "theorems": [
    "Sopht.circulation2",
    "Sopht.circulation3",
    "Sopht.run2_total",
    "Sopht.run3_kept",
    "Sopht.gFilter_total"
   ],
   "note": "kernels of the sopht package are outside the repository: assumed central differences and (advection) any flux form with stencil -1..2 per face; real arithmetic"
  },
  {
   "property": "C91",
   "status": "proved",
   "theorems": [
    "Sopht.diffusion2_maximum",
    "Sopht.diffusion3_maximum",
    "Sopht.diff2_bounds",
    "Sopht.diff3_bounds"
   ],
   "note": "kernels of the sopht package are outside the repository: assumed central differences and (advection) any flux form with stencil -1..2 per face; real arithmetic"
  },
  {
   "property": "C92",
   "status": "proved",
   "theorems": [
    "Sopht.velocity2_solenoidal",
    "Sopht.velocity3_solenoidal"
   ],
   "note": "kernels of the sopht package are outside the repository: assumed central differences and (advection) any flux form with stencil -1..2 per face; real arithmetic; within two cells of the sides the velocity is set to zero on the outermost layer, so the claim is false there"
  },
  {
   "property": "C93",
   "status": "proved",
   "theorems": [
    "Sopht.vorticity3_solenoidal",
    "Sopht.centralDiv3_curl",
    "Sopht.centralDiv3_inv",
    "Sopht.gFilter_inv"
   ],
   "note": "kernels of the sopht package are outside the repository: assumed central differences and (advection) any flux form with stencil -1..2 per face; real arithmetic"
  },
  {
   "property": "C94",
   "status": "proved",
   "theorems": [
    "Sopht.sim2_mirror_x",
    "Sopht.sim2_mirror_y",
    "Sopht.sim2_swap_axes"
   ],
   "note": "kernels of the sopht package are outside the repository: assumed central differences and (advection) one one-dimensional scheme along all axes that prefers no direction; real arithmetic; boundary zone at most half the grid"
  },
  {
   "property": "C95",
   "status": "proved",
   "theorems": [
    "Sopht.sim3_mirror",
    "Sopht.sim3_swap_xy",
    "Sopht.sim3_swap_yz",
    "Sopht.filter_prefers_axes"
   ],
   "note": "kernels of the sopht package are outside the repository: assumed central differences and (advection) one one-dimensional scheme along all axes that prefers no direction; real arithmetic; boundary zone at most half the grid"
  },
  {
   "property": "C96",
   "status": "proved",
   "theorems": [
    "Sopht.timeLoop2_ends",
    "Sopht.timeLoop2_passive",
    "Sopht.timeLoop2_same",
    "Sopht.timeLoop3_ends",
    "Sopht.timeLoop3_passive",
    "Sopht.timeLoop3_same",
    "Sopht.While.unique"
   ],
   "note": "Python's while as an inductive relation with at most one result; velocities of Navier-Stokes runs are assumed bounded (a bound is not a consequence of the code; an example shows that steps may otherwise shrink for ever); real arithmetic, so a time step too small to change a floating point clock is outside"
  },
  {
   "property": "C97",
   "status": "proved",
   "theorems": [
    "Sopht.due_iff",
    "Sopht.timeLoop2_snapshots",
    "Sopht.timeLoop3_snapshots",
    "Sopht.While.snapshots",
    "Sopht.Snapshots.gaps",
    "Sopht.Snapshots.recent",
    "Sopht.Snapshots.count"
   ],
   "note": "the snapshots themselves (plots, files, log lines) do not change the simulator: C47, C48, C89; real arithmetic"
  },
  {
   "property": "C98",
   "status": "proved",
   "theorems": [
    "Sopht.numberOf_name",
    "Sopht.fileName_injective",
    "Sopht.fileName_sorted",
    "Sopht.fileName_collision",
    "Sopht.fileName_unsorted"
   ],
   "note": "Python's % formatting of a float with d cuts the fraction off (modelled); time as a real number"
  },
  {
   "property": "C99",
   "status": "proved",
   "theorems": [
    "Sopht.restart_sound",
    "Sopht.restart_iff",
    "Sopht.crash_loses_all",
    "Sopht.stale_blocks"
   ],
   "note": "files are emptied and then filled, unreadable in between; ea.save_state/load_state of PyElastica (outside the repository) as one file system_0.npz with its time, for the one rod of the example; exceptions on the master only are exceptions of the restart; that loading returns what was saved is C47 and C48, that the resumed run continues is C84"
  },
  {
   "property": "C100",
   "status": "proved",
   "theorems": [
    "Sopht.rodSteps_pos",
    "Sopht.localDt_sum",
    "Sopht.localDt_small",
    "Sopht.localDt_large",
    "Sopht.damper_time",
    "Sopht.subSteps2_clock",
    "Sopht.rodLoop2_clocks",
    "Sopht.rodLoop2_body_clock",
    "Sopht.rodRun2",
    "Sopht.subSteps3_clock",
    "Sopht.rodLoop3_clocks",
    "Sopht.rodLoop3_body_clock",
    "Sopht.rodRun3"
   ],
   "note": "the time stepper and the rod of PyElastica (outside the repository) are arbitrary functions that ask the interactor for forces once per sub-step, as PositionVerlet does; real arithmetic"
  },
  {
   "property": "C101",
   "status": "proved",
   "theorems": [
    "Sopht.ioOrigin2_spec",
    "Sopht.ioOrigin3_spec",
    "Sopht.rodOrigin3_shifted"
   ],
   "note": "real arithmetic"
  },
  {
   "property": "C102",
   "status": "proved",
   "theorems": [
    "Sopht.l2Error2_global",
    "Sopht.linfError2_global",
    "Sopht.l2Error3_global",
    "Sopht.linfError3_global"
   ],
   "note": "real arithmetic (in floating point the sums may differ in the last digits)"
  },
  {
   "property": "C103",
   "status": "proved",
   "theorems": [
    "Sopht.lambOseen_advDiff",
    "Sopht.lambOseen_velocity",
    "Sopht.pointSource_advDiff",
    "Sopht.lambOseen_start",
    "Sopht.pointSource_exact_reported",
    "Sopht.pointSource_start"
   ],
   "note": "derivatives of Mathlib (HasDerivAt); real arithmetic; nothing is claimed about convergence of the discretisation to these solutions"
  },
  {
   "property": "C104",
   "status": "proved",
   "theorems": [
    "Sopht.fixedLoop2_ends",
    "Sopht.fixedLoop2_drag",
    "Sopht.fixedLoop2_start",
    "Sopht.fixedLoop2_same",
    "Sopht.fixedLoop3_ends",
    "Sopht.fixedLoop3_drag",
    "Sopht.fixedLoop3_start",
    "Sopht.fixedLoop3_same"
   ],
   "note": "recorded times before division by the time scale; plotting, logging and IO in the loop are those of C47, C48, C89 and do not change the state; real arithmetic"
  },
  {
   "property": "C105",
   "status": "proved",
   "theorems": [
    "Sopht.scalar2_moments",
    "Sopht.scalar3_moments"
   ],
   "note": "for advection kernels in flux form that use a weighted average of the four cells around a face (exKern2_stream, exKern3_stream: the third order upwind kernel of sopht does) and the five/seven point Laplacian; real arithmetic"
  },
  {
   "property": "C106",
   "status": "proved",
   "theorems": [
    "Sopht.coupled2_impulse",
    "Sopht.fixedLoop2_impulse",
    "Sopht.coupled3_impulse",
    "Sopht.fixedLoop3_impulse",
    "Sopht.run3_impulse"
   ],
   "note": "kernels: central differences for the vorticity update, seven point Laplacian (C90); the whole step is 3D only, since in 2D the momentum carried by the upwind flux is not a sum of u x w; real arithmetic"
  },
  {
   "property": "C107",
   "status": "proved",
   "theorems": [
    "Sopht.sim2_placement",
    "Sopht.sim2_placement_fixed",
    "Sopht.sim3_placement",
    "Sopht.sim3_placement_fixed"
   ],
   "note": "sim*_placement: any rule for the time steps provided the clocks advance alike (stable time steps look at the largest velocity of the grid, which differs between grids); the margin is the reach of a step (3 cells, 3D: + filter order) per step; kernels change nothing where the field they carry vanishes (exKern2_quiet, exKern3_quiet); real arithmetic"
  },
  {
   "property": "C108",
   "status": "proved",
   "theorems": [
    "Sopht.lambOseen_report",
    "Sopht.lambOseen_same",
    "Sopht.pointSource_report"
   ],
   "note": "expected values are defined on the global grid (LambArgs.expected, PointArgs.expected); facts of the code that show in them: the Lamb-Oseen driver starts with the velocity of t_end and without the free stream, and compares at the end with a velocity computed anew without the free stream; the point source driver compares with the analytical field at t_start (moved centre). Titles are an arbitrary function of the time; 0/0 at the vortex centre is 0 in the model (nan in NumPy); the plotter's messages are run separately from the simulator's; the video (os.system) is not modelled; origin and dx of the files are arbitrary here (C101 has their values); real arithmetic"
  },
  {
   "property": "C109",
   "status": "proved",
   "theorems": [
    "Sopht.rodCase2_report",
    "Sopht.rodCase2_same",
    "Sopht.rodCase3_report",
    "Sopht.rodCase3_same"
   ],
   "note": "expected values: refRods2/3, refShot2, refLog3 on the global grid. The body is an arbitrary stepper (positions, velocities, the step before, with and after the forces), that of the master rank; PyElastica itself is not modelled. Assumed of the run on the global grid: the body stays inside until t_end and the ranks notice when its nodes change hands (RodStep2/3, as in C65/C66). The positions plotted are those of the last interaction, after which the body has not moved. In 3D a snapshot exchanges ghost cells of the vorticity (rodLook3), so it writes to the arrays. Files written at a snapshot: C47/C101; pictures: C89. Real arithmetic"
  },
  {
   "property": "C110",
   "status": "proved",
   "theorems": [
    "Sopht.diffusion2_dissipates",
    "Sopht.diffusion2_order",
    "Sopht.diffusion3_dissipates",
    "Sopht.diffusion3_order",
    "Sopht.penalty_sq",
    "Sopht.penalty_abs",
    "Sopht.penalty_above"
   ],
   "note": "the diffusion kernel is the five-point (2D) or seven-point (3D) Laplacian and advection by zero velocity is zero; in 2D the penalty zone belongs to the Navier-Stokes steps only. In the outermost cells the code does not diffuse, so a field that does not start at zero there could gain from them. Real arithmetic"
  },
  {
   "property": "C111",
   "status": "proved",
   "theorems": [
    "Sopht.circulation_bodies2",
    "Sopht.solenoidal_bodies2",
    "Sopht.circulation_bodies3",
    "Sopht.solenoidal_bodies3"
   ],
   "note": "kernels: central differences, five/seven point Laplacian, advection in flux form (C90, C92, C93); programs as in C68 and C70 (bodies inside the domain, remapping noticed). Real arithmetic. exBudget2 and exBudget3 meet all hypotheses with a body across a rank boundary"
  },
  {
   "property": "C112",
   "status": "proved",
   "theorems": [
    "Sopht.coupled2_placement",
    "Sopht.coupled3_placement"
   ],
   "note": "time steps given by the driver (stable time steps look at the largest velocity of the whole grid, which differs between grids); programs as in C68 and C70, bodies off the outermost cells whenever forces are asked for (Clear2, Clear3) and off the reach of the flow steps when they force the flow (Apart2, Apart3); kernels change nothing where the field they carry vanishes; real arithmetic. exPlace2 and exPlace3 meet all hypotheses with a body across rank boundaries on both grids"
  },
  {
   "property": "C113",
   "status": "proved",
   "theorems": [
    "Sopht.copies2_run",
    "Sopht.copies3_run"
   ],
   "note": "the body and its time stepper (PyElastica) are arbitrary functions which get the contents of body_flow_forces and body_flow_torques; figures, files and the total force of the log line are left out; the body stays inside and remappings are noticed in the iterations that are run (RodStep2, RodStep3, see C20); real arithmetic"
  },
  {
   "property": "C114",
   "status": "proved",
   "theorems": [
    "Sopht.couple_message",
    "Sopht.couple_numbers",
    "Sopht.couple_no_master",
    "Sopht.couple_shared_arrays",
    "Sopht.couple_one_array",
    "Sopht.couple_used"
   ],
   "note": "arrays have one entry; dx > 0 for the message; the broadcast is modelled by its result"
  },
  {
   "property": "C115",
   "status": "proved",
   "theorems": [
    "Sopht.sim2_units",
    "Sopht.sim3_units",
    "Sopht.coupled2_units",
    "Sopht.coupled3_units",
    "Sopht.dt3_units_fails"
   ],
   "note": "kernels of the sopht package: diffusion, curls and divergence are central differences, advection is homogeneous in factor, field and velocity (Homog2, Homog3); bodies stay inside and remappings are noticed on both decompositions (C20), stated for the first run only; a 3D Navier-Stokes flow has no passive scalar, the array of the model is converted along; real arithmetic"
  },
  {
   "property": "C116",
   "status": "proved",
   "theorems": [
    "Sopht.cylinder2_starts",
    "Sopht.cylinder2_run",
    "Sopht.cylinder2_same",
    "Sopht.cylinder2_default",
    "Sopht.sphere3_starts",
    "Sopht.sphere3_run",
    "Sopht.sphere3_same",
    "Sopht.sphere3_default",
    "Sopht.Snapshots.unique"
   ],
   "note": "the nodes of the forcing grids (sopht package) lie on the body; kernels vanish on zero fields; grid wide enough: 56 cells along x and 6 gx + 500 < 100 gy for the cylinder, 9 cells along y and z and 4 min(gz, gy) + 50 < 5 gx for the sphere; plots, videos and files are left out; real arithmetic"
  },
  {
   "property": "C117",
   "status": "proved",
   "theorems": [
    "Sopht.machine2_run",
    "Sopht.machine2_same",
    "Sopht.machine3_run",
    "Sopht.machine3_same",
    "Sopht.rounded_sound",
    "Sopht.rounded_sums_differ",
    "Sopht.machStep2_exact",
    "Sopht.machStable2_exact",
    "Sopht.machStep3_exact",
    "Sopht.machStable3_exact"
   ],
   "note": "numbers are an abstract type, ordered linearly where the stable step is used (no NaN); kernels see neighbours along the axes only (Num.Local) and are trusted to compute the same function of these in every pass and on every rank; assigned and initial arrays hold the same numbers on both decompositions; with exact arithmetic the model is the simulator model of the other claims (the *_exact theorems)"
  },
  {
   "property": "C118",
   "status": "proved",
   "theorems": [
    "Sopht.logfile_complete",
    "Sopht.logfile_kept",
    "Sopht.logfile_whole_lines",
    "Sopht.logfile_step",
    "Sopht.logfile_bounded",
    "Sopht.logfile_ends",
    "Sopht.logfile_stuck",
    "Sopht.logfile_lines",
    "Sopht.logger_line_count",
    "Sopht.logProgram_ends",
    "Sopht.logfile_twice_broken"
   ],
   "note": "trusted: Write_shared in atomic mode writes at the shared pointer and advances it in one step, every opening has its own shared pointer which starts at the end of the file, MPI.File.Open waits for all ranks; closing is at the end of the program only (C50 for remove_and_close_all_handlers); console output not modelled"
  },
  {
   "property": "C119",
   "status": "proved",
   "theorems": [
    "Sopht.flowRod_numbers",
    "Sopht.rodNodes2_eq",
    "Sopht.flowRod_starts",
    "Sopht.flowRod_run",
    "Sopht.flowRod_same",
    "Sopht.flowRod_default"
   ],
   "note": "pyelastica (the motion of the rod) is any function of the rod's properties; forcing kernels any local ones; hypotheses until the final time: velocities bounded, rod inside, ranks notice when nodes change hands (C19); plots, video, csv formatting not modelled"
  },
  {
   "property": "C120",
   "status": "proved",
   "theorems": [
    "Sopht.onRod3_iff",
    "Sopht.flowRod3_numbers",
    "Sopht.flowRod3_starts",
    "Sopht.flowRod3_run",
    "Sopht.flowRod3_same",
    "Sopht.flowRod3_default"
   ],
   "note": "pyelastica (the motion of the rod) is any function of the rod's properties; the nodes of the forcing grid are any on the rod; forcing kernels any local ones; hypotheses until the final time: velocities bounded, rod inside, ranks notice when nodes change hands (C19); plots, csv formatting not modelled. Finding: the comment says Froude = g L / U^2, the code uses the diameter"
  },
  {
   "property": "C121",
   "status": "proved",
   "theorems": [
    "Sopht.onSpin_iff",
    "Sopht.flowSpin_numbers",
    "Sopht.flowSpin_starts",
    "Sopht.flowSpin_run",
    "Sopht.flowSpin_same",
    "Sopht.flowSpin_default",
    "Sopht.flowSpin_files"
   ],
   "note": "pyelastica (the motion of the rod) is any function of the rod's properties; the nodes of the forcing grid are any on the rod; forcing kernels any local ones; hypotheses until the final time: velocities bounded, rod inside, ranks notice when nodes change hands (C19); restarts are in C84 and C99, contents of files in C47 and C81; the model's line also has the total force, which this driver does not compute"
  },
  {
   "property": "C122",
   "status": "proved",
   "theorems": [
    "Sopht.restart3_still",
    "Sopht.crestart3",
    "Sopht.restart3_free_stream_inexact",
    "Sopht.restart3_moving_beyond_inexact"
   ],
   "note": "real arithmetic; kernels are parameters; crestart3 is the statement with bodies, its hypothesis on the penalty zone or the free stream covers C84 and C122"
  }
 ]
}