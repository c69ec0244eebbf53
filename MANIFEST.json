{
 "claims": [
  {
   "property": "C01",
   "status": "proved",
   "theorems": [
    "Tandem.MultiIndex.C01_unflatten_flatten",
    "Tandem.MultiIndex.C01_flatten_unflatten",
    "Tandem.MultiIndex.C01_unflatten_ub_iff"
   ],
   "note": "unbounded naturals; unflatten with a zero non-last extent is division by zero (C01_unflatten_ub_iff)"
  },
  {
   "property": "C02",
   "status": "proved",
   "theorems": [
    "Tandem.MultiIndex.C02_product_complete",
    "Tandem.MultiIndex.C02_product_not_earlier",
    "Tandem.MultiIndex.C02_zero_extent_visits_bogus_index",
    "Tandem.MultiIndex.C02_zero_extent_witness"
   ],
   "note": "holds for all-positive extents; with a zero inner extent the iteration visits an out-of-range index (proved, with witness)"
  },
  {
   "property": "C03",
   "status": "proved",
   "theorems": [
    "Tandem.Algorithm.C03_apply_permutation",
    "Tandem.Algorithm.C03_apply_permutation_perm",
    "Tandem.Algorithm.C03_not_a_permutation_may_diverge"
   ],
   "note": "vector part"
  },
  {
   "property": "C04",
   "status": "proved",
   "theorems": [
    "Tandem.Algorithm.C04_find_blocks"
   ],
   "note": ""
  },
  {
   "property": "C05",
   "status": "proved",
   "theorems": [
    "Tandem.Combinatorics.C05_choose_enumerates",
    "Tandem.Combinatorics.C05_binom"
   ],
   "note": ""
  },
  {
   "property": "C06",
   "status": "proved",
   "theorems": [
    "Tandem.Combinatorics.C06_sums_at_most",
    "Tandem.Combinatorics.C06_sums_exact"
   ],
   "note": ""
  },
  {
   "property": "C07",
   "status": "proved",
   "theorems": [
    "Tandem.Combinatorics.C07_number_below_factorial",
    "Tandem.Combinatorics.C07_number_injective",
    "Tandem.Combinatorics.C07_collision_at_13"
   ],
   "note": ""
  },
  {
   "property": "C08",
   "status": "proved",
   "theorems": [
    "Tandem.Combinatorics.C08_rangeProduct",
    "Tandem.Combinatorics.C08_rangeProduct_diverges",
    "Tandem.Combinatorics.C08_factorial",
    "Tandem.Combinatorics.C08_factorial_21_wraps"
   ],
   "note": ""
  },
  {
   "property": "C09",
   "status": "proved",
   "theorems": [
    "Tandem.LinearAllocator.C09_blocks_ok",
    "Tandem.LinearAllocator.C09_allocate_iff",
    "Tandem.LinearAllocator.C09_allocation_size",
    "Tandem.LinearAllocator.C09_sizes_suffice",
    "Tandem.LinearAllocator.C09_allocation_size_zero",
    "Tandem.LinearAllocator.C09_overflow_witness"
   ],
   "note": ""
  },
  {
   "property": "C10",
   "status": "proved",
   "theorems": [
    "Tandem.Hash.C10_running_eq_whole",
    "Tandem.Hash.C10_keywords_distinct",
    "Tandem.Hash.C10_dispatch_keyword",
    "Tandem.Hash.C10_dispatch_only",
    "Tandem.Hash.C10_is_fnv1a",
    "Tandem.Hash.C10_section_tokens"
   ],
   "note": "the keyword table is finite and compared by kernel evaluation; the equality of incremental and whole-string hash is for all strings"
  },
  {
   "property": "C11",
   "status": "proved",
   "theorems": [
    "Tandem.Zero.C11_result",
    "Tandem.Zero.C11_terminates",
    "Tandem.Zero.C11_terminates_off_zero",
    "Tandem.Zero.C11_succeeds",
    "Tandem.Zero.C11_succeeds_continuous",
    "Tandem.Zero.C11_zero_tolerance_loops",
    "Tandem.Zero.C11_endpoints"
   ],
   "note": "exact arithmetic over any linear ordered field; C11_succeeds_continuous: real continuous functions, also with zero tolerance; C11_zero_tolerance_loops: the condition at the origin is needed"
  },
  {
   "property": "C12",
   "status": "proved",
   "theorems": [
    "Tandem.Schema.C12_translate_iff",
    "Tandem.Schema.C12_field",
    "Tandem.Schema.C12_error_names_field",
    "Tandem.Schema.C12_unknown_keys_ignored",
    "Tandem.Schema.C12_non_table_is_empty_table",
    "Tandem.Schema.C12_default_not_validated",
    "Tandem.Schema.C12_set",
    "Tandem.Schema.C12_integer_text",
    "Tandem.Schema.C12_integer_garbage",
    "Tandem.Schema.C12_iEquals_is_prefix"
   ],
   "note": "defaults are not validated, scalars in place of tables are read as empty tables, trailing garbage of integers is accepted, iEquals is a prefix test: all stated as theorems"
  },
  {
   "property": "C13",
   "status": "proved",
   "theorems": [
    "Tandem.Tensor.C13_packed_layout",
    "Tandem.Tensor.C13_wf",
    "Tandem.Tensor.C13_subtensor",
    "Tandem.Tensor.C13_reshape",
    "Tandem.Tensor.C13_set_constant",
    "Tandem.Tensor.C13_set_constant_strided",
    "Tandem.Tensor.C13_copy_values",
    "Tandem.Tensor.C13_copy_values_diverges"
   ],
   "note": "set_constant on a strided view writes outside of the view and copy_values diverges for an empty inner extent: stated as theorems"
  },
  {
   "property": "C14",
   "status": "proved",
   "theorems": [
    "Tandem.ScatterPlan.C14_has_block",
    "Tandem.ScatterPlan.C14_block_location",
    "Tandem.ScatterPlan.C14_write_block",
    "Tandem.ScatterPlan.C14_composite"
   ],
   "note": "index lists longer than 2^64-2 entries excluded"
  },
  {
   "property": "C15",
   "status": "proved",
   "theorems": [
    "Tandem.Distribute.C15_distribute",
    "Tandem.Distribute.C15_zero_ranks"
   ],
   "note": "exact arithmetic; zero ranks is a division by zero (proved)"
  },
  {
   "property": "C16",
   "status": "proved",
   "theorems": [
    "Tandem.Distribute.C16_finds_rank",
    "Tandem.Distribute.C16_unique",
    "Tandem.Distribute.C16_owner",
    "Tandem.Distribute.C16_empty_single_rank",
    "Tandem.Distribute.C16_id_too_large"
   ],
   "note": "an id >= dist[procs] runs off the array (C16_id_too_large)"
  },
  {
   "property": "C17",
   "status": "proved",
   "theorems": [
    "Tandem.CommPattern.C17_exchange",
    "Tandem.CommPattern.C17_reply",
    "Tandem.CommPattern.C17_default_layout"
   ],
   "note": "MPI_Alltoall/MPI_Alltoallv semantics assumed from the standard; arbitrary arrival order"
  },
  {
   "property": "C18",
   "status": "proved",
   "theorems": [
    "Tandem.ScatterPlan.C18_scatter",
    "Tandem.ScatterPlan.C18_owner_has",
    "Tandem.ScatterPlan.C18_matching",
    "Tandem.ScatterPlan.C18_simple_scatter",
    "Tandem.ScatterPlan.C18_consistent_of_sorted"
   ],
   "note": "MPI point-to-point semantics assumed; consistency of the distributed faces is a hypothesis with a proved sufficient condition"
  },
  {
   "property": "C19",
   "status": "partial",
   "theorems": [
    "Tandem.Affinity.C19_text",
    "Tandem.Affinity.C19_node_mask_x86",
    "Tandem.Affinity.C19_node_mask_partial",
    "Tandem.Affinity.C19_node_mask_too_large",
    "Tandem.Affinity.C19_conversion_always_undefined",
    "Tandem.Affinity.C19_worker_mask"
   ],
   "note": "exactness of the mask is refuted: 1 << (cpu%64) on int is undefined for every CPU set that is converted (C19_conversion_always_undefined); the value x86 produces is characterised exactly"
  },
  {
   "property": "C20",
   "status": "proved",
   "theorems": [
    "Tandem.Simplex.C20_mk_sorted",
    "Tandem.Simplex.C20_eq_iff_perm",
    "Tandem.Simplex.C20_eq_iff_same_vertices",
    "Tandem.Simplex.C20_downward",
    "Tandem.Simplex.C20_facet_opposite"
   ],
   "note": "std::array comparison and std::sort assumed from the standard"
  },
  {
   "property": "C21",
   "status": "proved",
   "theorems": [
    "Tandem.Partition.C21_partition",
    "Tandem.Partition.C21_bad_target"
   ],
   "note": "partition array supplied by ParMETIS is an arbitrary list; C21_bad_target covers out-of-range entries"
  },
  {
   "property": "C22",
   "status": "proved",
   "theorems": [
    "Tandem.Faces.C22_faces",
    "Tandem.Faces.C22_vertices",
    "Tandem.Faces.C22_shared_counts_match",
    "Tandem.Faces.C22_sharing_symmetric",
    "Tandem.Faces.C22_owner_may_not_hold"
   ],
   "note": "the recorded owner is the rendezvous rank of the face, which need not hold the face (C22_owner_may_not_hold)"
  },
  {
   "property": "C23",
   "status": "proved",
   "theorems": [
    "Tandem.Ghosts.C23_ghost_elements",
    "Tandem.Ghosts.C23_shared_ranks",
    "Tandem.Ghosts.C23_element_data",
    "Tandem.Ghosts.C23_overlap_one"
   ],
   "note": "any overlap, any number of ranks, any traversal order of unordered containers; MPI_Alltoallv semantics assumed; vertex numbers below 2^64-1"
  },
  {
   "property": "C24",
   "status": "proved",
   "theorems": [
    "Tandem.LocalFaces.C24_permute",
    "Tandem.LocalFaces.C24_volume_tags_not_permuted"
   ],
   "note": "volumeTagData_ is not permuted by permute (C24_volume_tags_not_permuted); dormant since only DD<D faces are permuted"
  },
  {
   "property": "C25",
   "status": "proved",
   "theorems": [
    "Tandem.LocalMesh.C25_incidence",
    "Tandem.LocalMesh.C25_one_or_two",
    "Tandem.LocalMesh.C25_closed"
   ],
   "note": "valid (conforming) meshes; incidence as computed by LocalSimplexMesh"
  },
  {
   "property": "C26",
   "status": "proved",
   "theorems": [
    "Tandem.GenMesh.C26_elements",
    "Tandem.GenMesh.C26_empty_direction_ub",
    "Tandem.GenMesh.C26_vertices"
   ],
   "note": "dimensions 2 and 3; uint64 overflow not modelled; coordinates in an arbitrary ordered field; an empty direction divides by zero on every rank (C26_empty_direction_ub)"
  },
  {
   "property": "C27",
   "status": "proved",
   "theorems": [
    "Tandem.GenMesh.C27_conforming",
    "Tandem.GenMesh.C27_cell_covered",
    "Tandem.GenMesh.C27_interiors_disjoint"
   ],
   "note": "conforming: facet counts for all mesh sizes; tiling of a cell proved over any ordered field"
  },
  {
   "property": "C28",
   "status": "proved",
   "theorems": [
    "Tandem.GenMesh.C28_resolution",
    "Tandem.GenMesh.C28_cells_per_region",
    "Tandem.GenMesh.C28_documented_bound_fails",
    "Tandem.GenMesh.C28_narrow_first_region"
   ],
   "note": "the documented bound is refuted (C28_documented_bound_fails); the true bound 1.5 h is proved"
  },
  {
   "property": "C29",
   "status": "proved",
   "theorems": [
    "Tandem.GenMesh.C29_find_region",
    "Tandem.GenMesh.C29_out_of_range",
    "Tandem.GenMesh.C29_coordinate_interpolates",
    "Tandem.GenMesh.C29_corner_points",
    "Tandem.GenMesh.C29_coordinates_ascend"
   ],
   "note": "index above the last boundary reads behind the array (C29_out_of_range)"
  },
  {
   "property": "C30",
   "status": "proved",
   "theorems": [
    "Tandem.FacetData.C30_facet_tags"
   ],
   "note": "boundary mesh facets found by lookup, None otherwise"
  },
  {
   "property": "C31",
   "status": "proved",
   "theorems": [
    "Tandem.DGTopo.C31_boundary_map",
    "Tandem.DGTopo.C31_throws",
    "Tandem.DGTopo.C31_owned_once",
    "Tandem.DGTopo.C31_scatter"
   ],
   "note": "constructor proved from the distributed mesh (C33_local_meshes shows getLocalMesh(1) produces such views); scatter delivers the lower rank's data to the higher rank"
  },
  {
   "property": "C32",
   "status": "proved",
   "theorems": [
    "Tandem.DGTopo.C32_sparsity",
    "Tandem.DGTopo.C32_blocks",
    "Tandem.DGTopo.C32_diagonal_part",
    "Tandem.DGTopo.C32_prealloc"
   ],
   "note": "block and scalar counts are exact when every volume and skeleton kernel contributes, upper bounds otherwise; PETSc itself not modelled"
  },
  {
   "property": "C33",
   "status": "proved",
   "theorems": [
    "Tandem.DGTopo.C33_facet_info",
    "Tandem.DGTopo.C33_interior",
    "Tandem.DGTopo.C33_no_race",
    "Tandem.DGTopo.C33_neighbours",
    "Tandem.DGTopo.C33_plan_consistent",
    "Tandem.DGTopo.C33_apply",
    "Tandem.DGTopo.C33_local_meshes",
    "Tandem.DGTopo.C33_facet_order"
   ],
   "note": "proved for the views getLocalMesh(1) computes; arrival order and premature ghost content arbitrary; local kernels are parameters"
  },
  {
   "property": "C34",
   "status": "partial",
   "theorems": [
    "Tandem.GMSHLexer.C34_roundtrip_partial",
    "Tandem.GMSHLexer.C34_getToken_hangs_iff",
    "Tandem.GMSHLexer.C34_progress",
    "Tandem.GMSHLexer.C34_unknown_token_stuck",
    "Tandem.GMSHLexer.C34_every_stream",
    "Tandem.GMSHLexer.C34_hang_missing_final_newline",
    "Tandem.GMSHLexer.C34_hang_trailing_blank_line",
    "Tandem.GMSHLexer.C34_number_at_eof_throws",
    "Tandem.GMSHLexer.C34_integer_value"
   ],
   "note": "the claim is false of the code: the lexer does NOT terminate on every input. C34_every_stream: on every text the calls end, or after some calls the reader is stuck for ever; C34_getToken_hangs_iff and C34_unknown_token_stuck characterise the stuck states exactly. The round trip holds for printed tokens separated by arbitrary non-empty white space and ended by exactly one white-space character (C34_roundtrip_partial; with more or none the lexer hangs)"
  },
  {
   "property": "C35",
   "status": "proved",
   "theorems": [
    "Tandem.GMSHParser.C35_well_formed",
    "Tandem.GMSHParser.C35_text",
    "Tandem.GMSHParser.C35_terminates",
    "Tandem.GMSHParser.C35_bad_header",
    "Tandem.GMSHParser.C35_malformed_nodes_accepted",
    "Tandem.GMSHParser.C35_untagged_inherits",
    "Tandem.GMSHParser.C35_node_out_of_range",
    "Tandem.GMSHParser.C35_node_counts",
    "Tandem.GMSHParser.C35_hexahedron_counts_wrong"
   ],
   "note": "well-formed files only deliver; defects on malformed files are stated as theorems"
  },
  {
   "property": "C36",
   "status": "proved",
   "theorems": [
    "Tandem.MeshBuilder.C36_types",
    "Tandem.MeshBuilder.C36_elements",
    "Tandem.MeshBuilder.C36_high_order",
    "Tandem.MeshBuilder.C36_rejects",
    "Tandem.MeshBuilder.C36_create",
    "Tandem.MeshBuilder.C36_facet_off_mesh"
   ],
   "note": ""
  },
  {
   "property": "C37",
   "status": "proved",
   "theorems": [
    "Tandem.HDF5MeshParser.C37_faces",
    "Tandem.HDF5MeshParser.C37_either_side",
    "Tandem.HDF5MeshParser.C37_tag_lost",
    "Tandem.HDF5MeshParser.C37_file",
    "Tandem.HDF5MeshParser.C37_builder"
   ],
   "note": ""
  },
  {
   "property": "C38",
   "status": "proved",
   "theorems": [
    "Tandem.Table.C38_file",
    "Tandem.Table.C38_restart_appends",
    "Tandem.Table.C38_read_back",
    "Tandem.Table.C38_probes",
    "Tandem.Table.C38_same_file_lost",
    "Tandem.Table.C38_probe_title"
   ],
   "note": "the text printed for a number is a parameter; file operations succeed; two probes with the same name share a file and lose data (C38_same_file_lost); a restart appends, it does not remove rows written after the checkpoint"
  },
  {
   "property": "C39",
   "status": "proved",
   "theorems": [
    "Tandem.VTU.C39_widening",
    "Tandem.VTU.C39_gathered",
    "Tandem.VTU.C39_point_data"
   ],
   "note": "for pointDim 1, 2, 3; also the gathered array of a node and the alignment of point data with points"
  },
  {
   "property": "C40",
   "status": "proved",
   "theorems": [
    "Tandem.VTU.C40_cells",
    "Tandem.VTU.C40_roundtrip"
   ],
   "note": "full round trip through a reader of the VTK appended format, raw and zlib (zlib itself a parameter with uncompress(compress x) = x); uint64 wrap-around of offsets not modelled; cells need fewer than 2^31 points"
  },
  {
   "property": "C41",
   "status": "proved",
   "theorems": [
    "Tandem.Probes.C41_one_rank",
    "Tandem.Probes.C41_not_found_throws",
    "Tandem.Probes.C41_output_number"
   ],
   "note": "distances from a linear order (no NaN); MPI_Allreduce semantics assumed"
  },
  {
   "property": "C42",
   "status": "proved",
   "theorems": [
    "Tandem.HDF5Writer.C42_append",
    "Tandem.HDF5Writer.C42_rows_partition",
    "Tandem.HDF5Writer.C42_history",
    "Tandem.HDF5Writer.C42_moment_rate",
    "Tandem.HDF5Writer.C42_rewrite_reads_out_of_bounds",
    "Tandem.HDF5Writer.C42_restart_throws",
    "Tandem.HDF5Writer.C42_fresh_file"
   ],
   "note": "HDF5 library semantics of set_extent/hyperslab writes assumed; rewriting an existing step > 0 reads out of bounds and a restart with checkpointing throws on the first data set (both stated as theorems)"
  },
  {
   "property": "C43",
   "status": "proved",
   "theorems": [
    "Tandem.Monitor.C43_due_iff",
    "Tandem.Monitor.C43_due_zero_tolerance",
    "Tandem.Monitor.C43_first",
    "Tandem.Monitor.C43_consecutive",
    "Tandem.Monitor.C43_outputs_sublist",
    "Tandem.Monitor.C43_min_gap",
    "Tandem.Monitor.C43_max_gap",
    "Tandem.Monitor.C43_moment_rate_steps",
    "Tandem.Monitor.C43_moment_rate_ignores_t_min"
   ],
   "note": "exact comparison arithmetic; the moment-rate writer does not follow the rule: its second output ignores t_min and repeats step 0 (C43_moment_rate_*)"
  },
  {
   "property": "C44",
   "status": "partial",
   "theorems": [
    "Tandem.GreenOp.C44_same_commsize",
    "Tandem.GreenOp.C44_change_commsize_partial",
    "Tandem.GreenOp.C44_unfinished_change",
    "Tandem.GreenOp.C44_rename_window",
    "Tandem.GreenOp.C44_labels_missing",
    "Tandem.GreenOp.C44_traction_file_not_atomic",
    "Tandem.GreenOp.C44_unfinished_change_witness",
    "Tandem.GreenOp.C44_traction_numbering_witness"
   ],
   "note": "same number of ranks in all jobs: proved for every crash history; change of the number of ranks: proved after completion, refuted before (C44_unfinished_change characterises exactly when it goes wrong), refuted for gf_vec.bin (two witnesses); linear solver idealised as independent of the partition"
  },
  {
   "property": "C45",
   "status": "partial",
   "theorems": [
    "Tandem.TSCheckpoint.C45_named_is_complete",
    "Tandem.TSCheckpoint.C45_limited",
    "Tandem.TSCheckpoint.C45_unlimited",
    "Tandem.TSCheckpoint.C45_limited_restart_partial",
    "Tandem.TSCheckpoint.C45_latest",
    "Tandem.TSCheckpoint.C45_previous_survives",
    "Tandem.TSCheckpoint.C45_at_most_limit",
    "Tandem.TSCheckpoint.C45_step_trigger",
    "Tandem.TSCheckpoint.C45_triggers",
    "Tandem.TSCheckpoint.C45_trigger_rule",
    "Tandem.TSCheckpoint.C45_cpu_spacing",
    "Tandem.TSCheckpoint.C45_one_slot_unsafe",
    "Tandem.TSCheckpoint.C45_restart_slot_zero_unsafe",
    "Tandem.TSCheckpoint.C45_naming_window"
   ],
   "note": "rename/write as atomic steps of a file system; holds within a run for limited_size >= 2; refuted for limited_size = 1 and for a run restarted from slot 0 (witness theorems); restart with limited storage only under the stated slot condition (C45_limited_restart_partial)"
  },
  {
   "property": "C46",
   "status": "proved",
   "theorems": [
    "Tandem.MGConfig.C46_levels",
    "Tandem.MGConfig.C46_full",
    "Tandem.MGConfig.C46_logarithmic",
    "Tandem.MGConfig.C46_degree_zero",
    "Tandem.MGConfig.C46_unknown"
   ],
   "note": "max_degree = 0 with TwoLevel gives the list {0,0} (C46_degree_zero)"
  },
  {
   "property": "C47",
   "status": "partial",
   "theorems": [
    "Tandem.DieterichRuina.C47_unique",
    "Tandem.DieterichRuina.C47_slip_rate",
    "Tandem.DieterichRuina.C47_terminates_partial",
    "Tandem.DieterichRuina.C47_tension",
    "Tandem.DieterichRuina.C47_undamped",
    "Tandem.DieterichRuina.C47_no_shear_stress",
    "Tandem.DieterichRuina.C47_init",
    "Tandem.DieterichRuina.C47_first_slip_rate",
    "Tandem.DieterichRuina.C47_tau_hat"
   ],
   "note": "exact reals; the solve is proved correct whenever it returns, and to return unless a slip rate of exactly one (the origin of the decimal logarithm) balances the shear stress (C47_terminates_partial; missing: that single case, where exact arithmetic need not end); overflow not modelled; zero shear stress gives NaN without an error (C47_no_shear_stress)"
  },
  {
   "property": "C48",
   "status": "proved",
   "theorems": [
    "Tandem.Monitor.C48_schedule",
    "Tandem.Monitor.C48_not_fsal",
    "Tandem.Monitor.C48_fsal",
    "Tandem.Monitor.C48_fsal_moment_rate",
    "Tandem.Monitor.C48_final_displacement",
    "Tandem.Monitor.C48_moment_rate_stale",
    "Tandem.Monitor.C48_restart_stale"
   ],
   "note": "true exactly for FSAL integrators; refuted for non-FSAL integrators, for moment-rate writers and after a restart (witness theorems)"
  },
  {
   "property": "C50",
   "status": "proved",
   "theorems": [
    "Tandem.GenMesh.C50_face_condition",
    "Tandem.GenMesh.C50_boundary_mesh"
   ],
   "note": "needs non-decreasing region boundaries from 0 to N"
  },
  {
   "property": "C51",
   "status": "proved",
   "theorems": [
    "Tandem.GreenOp.C51_index_ranges",
    "Tandem.GreenOp.C51_vector_blocks"
   ],
   "note": "PETSc ownership layout (prefix sums of local sizes) and MPI_Scan assumed from their documentation"
  },
  {
   "property": "C54",
   "status": "proved",
   "theorems": [
    "Tandem.Functions.C54_jacobi",
    "Tandem.Functions.C54_homogenised",
    "Tandem.Functions.C54_derivatives",
    "Tandem.Functions.C54_jacobi_derivative"
   ],
   "note": ""
  },
  {
   "property": "C55",
   "status": "proved",
   "theorems": [
    "Tandem.Functions.C55_tri_value",
    "Tandem.Functions.C55_tet_value",
    "Tandem.Functions.C55_tri",
    "Tandem.Functions.C55_tet",
    "Tandem.Functions.C55_line",
    "Tandem.Functions.C55_line_wrong"
   ],
   "note": ""
  },
  {
   "property": "C56",
   "status": "proved",
   "theorems": [
    "Tandem.Functions.C56_degree",
    "Tandem.Functions.C56_round_trip",
    "Tandem.Functions.C56_degree_zero"
   ],
   "note": ""
  },
  {
   "property": "C58",
   "status": "proved",
   "theorems": [
    "Tandem.Curvilinear.C58_affine",
    "Tandem.Curvilinear.C58_faces",
    "Tandem.Curvilinear.C58_facet_param",
    "Tandem.Curvilinear.C58_facet_agree",
    "Tandem.Curvilinear.C58_normal",
    "Tandem.Curvilinear.C58_normal_length",
    "Tandem.Curvilinear.C58_normals_opposite",
    "Tandem.Curvilinear.C58_mesh_opposite"
   ],
   "note": ""
  },
  {
   "property": "C59",
   "status": "proved",
   "theorems": [
    "Tandem.SimplexDistance.C59_closest",
    "Tandem.SimplexDistance.C59_unique"
   ],
   "note": "Exact arithmetic; the simplex must be affinely independent and within sqrt(DBL_MAX)."
  },
  {
   "property": "C60",
   "status": "proved",
   "theorems": [
    "Tandem.PointLocator.C60_result",
    "Tandem.PointLocator.C60_newton",
    "Tandem.PointLocator.C60_inside",
    "Tandem.PointLocator.C60_wrong_point",
    "Tandem.PointLocator.C60_throws",
    "Tandem.PointLocator.C60_boundary_result",
    "Tandem.PointLocator.C60_boundary_exact",
    "Tandem.PointLocator.C60_wrong_facet"
   ],
   "note": "C60_newton characterises Newton's method on affine elements completely; C60_wrong_point, C60_throws and C60_wrong_facet are defects of the code. Convergence on curved elements is not claimed."
  },
  {
   "property": "C65",
   "status": "proved",
   "theorems": [
    "Tandem.HDF5Writer.C65_vertices",
    "Tandem.HDF5Writer.C65_degree_zero_out_of_bounds"
   ],
   "note": "degree zero writes out of bounds (C65_degree_zero_out_of_bounds)"
  },
  {
   "property": "C66",
   "status": "proved",
   "theorems": [
    "Tandem.VTU.C66_pvtu_lists_files",
    "Tandem.VTU.C66_names_differ"
   ],
   "note": "MPI_Scan/Allreduce semantics assumed"
  },
  {
   "property": "C67",
   "status": "partial",
   "theorems": [
    "Tandem.HDF5Writer.C67_probe_names_partial",
    "Tandem.HDF5Writer.C67_short_names_out_of_bounds"
   ],
   "note": "holds only on ranks that have a longest name; otherwise the buffer is read out of bounds (C67_short_names_out_of_bounds)"
  },
  {
   "property": "C68",
   "status": "proved",
   "theorems": [
    "Tandem.Monitor.C68_dt_limits"
   ],
   "note": "exact real times; at least one step"
  },
  {
   "property": "C70",
   "status": "proved",
   "theorems": [
    "Tandem.Elasticity.C70_elasticity",
    "Tandem.Poisson.C70_poisson",
    "Tandem.Poisson.C70_none_on_boundary",
    "Tandem.Poisson.C70_natural_inside",
    "Tandem.Poisson.C70_br2"
   ],
   "note": "exact reals; geometry samples (normals, inverse Jacobians, determinants) are arbitrary inputs; the generated kernels are the einsum formulas of the .py files. Witness theorems show the three cases in which the two paths differ (None on an outer facet, Natural inside, BR2)."
  },
  {
   "property": "C71",
   "status": "proved",
   "theorems": [
    "Tandem.Elasticity.C71_elasticity_br2_symmetric",
    "Tandem.Elasticity.C71_elasticity_lift",
    "Tandem.Elasticity.C71_elasticity_symmetric",
    "Tandem.Poisson.C71_poisson_br2_symmetric",
    "Tandem.Poisson.C71_br2_not_symmetric",
    "Tandem.Poisson.C71_poisson_symmetric"
   ],
   "note": "Geometry hypothesis: the two sides of a facet see opposite normals and the same quadrature points. BR2 needs coefficients constant along a facet (witness C71_br2_not_symmetric)."
  },
  {
   "property": "C72",
   "status": "proved",
   "theorems": [
    "Tandem.Elasticity.C72_elasticity_distribution",
    "Tandem.Poisson.C72_poisson_distribution"
   ],
   "note": "same geometry hypothesis as C71; IP and BR2"
  },
  {
   "property": "C73",
   "status": "proved",
   "theorems": [
    "Tandem.Elasticity.C73_elasticity_consistency",
    "Tandem.Elasticity.C73_elasticity_rigid",
    "Tandem.Poisson.C73_consistency",
    "Tandem.Poisson.C73_rigid"
   ],
   "note": "Poisson and elasticity operator, interior penalty and BR2, exact reals, any mesh and number of ranks; elasticity: every displacement without strain (translations and infinitesimal rotations) moves blocks, not only constants"
  },
  {
   "property": "C74",
   "status": "proved",
   "theorems": [
    "Tandem.Elasticity.C74_elasticity_traction_skeleton",
    "Tandem.Elasticity.C74_elasticity_traction_boundary",
    "Tandem.Elasticity.C74_elasticity_work",
    "Tandem.Elasticity.C74_elasticity_conservation",
    "Tandem.Elasticity.C74_elasticity_moment",
    "Tandem.Poisson.C74_conservation",
    "Tandem.Poisson.C74_traction_skeleton",
    "Tandem.Poisson.C74_traction_boundary"
   ],
   "note": "interior penalty, Poisson and elasticity; for elasticity also the balance of moments (C74_elasticity_moment)"
  },
  {
   "property": "C75",
   "status": "proved",
   "theorems": [
    "Tandem.Elasticity.C75_elasticity_penalty_same",
    "Tandem.Elasticity.C75_elasticity",
    "Tandem.Poisson.C75_penalty_same",
    "Tandem.Poisson.C75_poisson",
    "Tandem.TraceIneq.C75_trace_inequality",
    "Tandem.TraceIneq.C75_trace_sharp",
    "Tandem.TraceIneq.C75_poisson_straight",
    "Tandem.TraceIneq.C75_elasticity_straight"
   ],
   "note": "Poisson and elasticity operator, exact reals. C75_*_straight: any degree, straight elements, quadratures exact for degree 2N, nonnegative weights, coefficients positive (first Lame parameter not negative) with evaluation rows that are convex combinations; the inverse trace inequality is proved (C75_trace_inequality) and its constant shown optimal (C75_trace_sharp). C75_poisson/C75_elasticity: any geometry, the trace inequality as hypothesis. prepare_penalty takes min and max of projected coefficients, which in general do not bound the values at the points."
  },
  {
   "property": "C64",
   "status": "proved",
   "theorems": [
    "Tandem.RateAndState.C64_pre_init",
    "Tandem.RateAndState.C64_init",
    "Tandem.RateAndState.C64_rhs",
    "Tandem.RateAndState.C64_output",
    "Tandem.RateAndState.C64_names"
   ],
   "note": ""
  },
  {
   "property": "C76",
   "status": "proved",
   "theorems": [
    "Tandem.DieterichRuina.C76_steady_state",
    "Tandem.DieterichRuina.C76_at_rest"
   ],
   "note": "exact reals; the slip law gives NaN at slip rate zero (C76_at_rest)"
  },
  {
   "property": "C61",
   "status": "proved",
   "theorems": [
    "Tandem.Equidistant.C61_lattice",
    "Tandem.Equidistant.C61_vertices",
    "Tandem.Equidistant.C61_degree_zero",
    "Tandem.Equidistant.C61_edge_order",
    "Tandem.Equidistant.C61_face_order"
   ],
   "note": ""
  },
  {
   "property": "C77",
   "status": "proved",
   "theorems": [
    "Tandem.NodePermutation.C77_sound",
    "Tandem.NodePermutation.C77_complete",
    "Tandem.NodePermutation.C77_equidistant"
   ],
   "note": ""
  },
  {
   "property": "C79",
   "status": "proved",
   "theorems": [
    "Tandem.Curvilinear.C79_basis2",
    "Tandem.Curvilinear.C79_basis3",
    "Tandem.Curvilinear.C79_refused",
    "Tandem.Curvilinear.C79_plex_basis"
   ],
   "note": "A nearly colinear up vector is not noticed by the tolerance check (C79_refused)."
  },
  {
   "property": "C80",
   "status": "proved",
   "theorems": [
    "Tandem.Adapter.C80_swap",
    "Tandem.Adapter.C80_slip_swap",
    "Tandem.Adapter.C80_traction_swap",
    "Tandem.Adapter.C80_tangential",
    "Tandem.Adapter.C80_basis",
    "Tandem.Adapter.C80_mass",
    "Tandem.Adapter.C80_projection",
    "Tandem.Adapter.C80_projection_poisson",
    "Tandem.Adapter.C80_work",
    "Tandem.Adapter.C80_work_poisson",
    "Tandem.Adapter.C80_moment_rate",
    "Tandem.Adapter.C80_moment_uniform",
    "Tandem.Adapter.C80_mu_elasticity",
    "Tandem.Adapter.C80_mu_poisson_constant",
    "Tandem.Adapter.C80_mu_poisson_wrong",
    "Tandem.Adapter.C80_poisson_order"
   ],
   "note": "Poisson::mu_avg takes coefficients for point values: right only for constant modulus (C80_mu_poisson_constant, C80_mu_poisson_wrong)."
  },
  {
   "property": "C81",
   "status": "proved",
   "theorems": [
    "Tandem.Elasticity.C81_wave_rhs",
    "Tandem.Elasticity.C81_inverse",
    "Tandem.Elasticity.C81_momentum",
    "Tandem.Elasticity.C81_project",
    "Tandem.Elasticity.C81_force_ignored"
   ],
   "note": "The explicit (wave) right-hand side ignores a body force and does not support BR2, as the code."
  },
  {
   "property": "C78",
   "status": "proved",
   "theorems": [
    "Tandem.RefElement.C78_evaluation",
    "Tandem.RefElement.C78_modal_basis",
    "Tandem.RefElement.C78_lagrange",
    "Tandem.RefElement.C78_reproduces",
    "Tandem.RefElement.C78_partition_of_unity",
    "Tandem.RefElement.C78_gradient",
    "Tandem.RefElement.C78_gradient_line",
    "Tandem.RefElement.C78_unisolvent",
    "Tandem.RefElement.C78_equidistant",
    "Tandem.RefElement.C78_line_nodes"
   ],
   "note": ""
  },
  {
   "property": "C83",
   "status": "proved",
   "theorems": [
    "Tandem.RefElement.C83_nodal",
    "Tandem.RefElement.C83_modal"
   ],
   "note": ""
  },
  {
   "property": "C57",
   "status": "partial",
   "theorems": [
    "Tandem.Quadrature.C57_gauss_jacobi_partial",
    "Tandem.Quadrature.C57_simplex_partial",
    "Tandem.QuadTable.C57_points",
    "Tandem.QuadTable.C57_line",
    "Tandem.QuadTable.C57_triangle_three",
    "Tandem.Quadrature.C57_weights",
    "Tandem.Quadrature.C57_gauss_formula",
    "Tandem.Quadrature.C57_roots_exist",
    "Tandem.Quadrature.C57_interval",
    "Tandem.Quadrature.C57_newton",
    "Tandem.Quadrature.C57_one_point"
   ],
   "note": "The classical weight formula at the exact roots is exact for all n, a, b (C57_gauss_formula) and the program's weights are that formula (C57_weights). For the program's points: for all n a stability statement (points close to the roots give an almost exact rule); unconditional for up to 11 points (C57_points, C57_line, C57_triangle_three) by certified Newton iterations. Missing: convergence of the Newton iteration from the cosine guesses for more than 11 points; rounding errors of double."
  },
  {
   "property": "C63",
   "status": "proved",
   "theorems": [
    "Tandem.Quadrature.C63_exact",
    "Tandem.Quadrature.C63_choice"
   ],
   "note": "C63_choice is unconditional. C63_exact is for arbitrary exact tables and depends, where the tensor rule is chosen, on how close Newton's method comes to the roots; C84_program discharges this for the tables of the source up to order 20."
  },
  {
   "property": "C82",
   "status": "proved",
   "theorems": [
    "Tandem.RefElement.C82_modal",
    "Tandem.RefElement.C82_modal_inverse",
    "Tandem.RefElement.C82_nodal",
    "Tandem.RefElement.C82_nodal_inverse"
   ],
   "note": "Exact arithmetic; needs an exact rule of order 2N (C57, C63)."
  },
  {
   "property": "C84",
   "status": "proved",
   "theorems": [
    "Tandem.QuadTable.C84_triangles",
    "Tandem.QuadTable.C84_tetrahedra",
    "Tandem.QuadTable.C84_tetrahedra_js",
    "Tandem.QuadTable.C84_program",
    "Tandem.QuadTable.C84_high_order",
    "Tandem.QuadTable.C84_rounded"
   ],
   "note": "The decimals of the source are taken as exact rationals (C84_rounded bounds the effect of rounding them); generated Lean modules under Verif/Model/Tables are a transcription of the tables by tools/gen_tables.py; arithmetic of the Newton iteration is exact real arithmetic with the tolerance of the code."
  },
  {
   "property": "C85",
   "status": "proved",
   "theorems": [
    "Tandem.LSPoly.C85_iterates",
    "Tandem.LSPoly.C85_report",
    "Tandem.LSPoly.C85_no_amplification",
    "Tandem.LSPoly.C85_smoother",
    "Tandem.LSPoly.C85_wrong_weight"
   ],
   "note": "proved for all real alpha, beta > -1 with alpha+beta != -1; for alpha+beta=-1 the first coefficient is wrong (C85_wrong_weight, a bug). Norm-NaN checks, monitoring and the eigenvalue estimator are not modelled."
  },
  {
   "property": "C86",
   "status": "proved",
   "theorems": [
    "Tandem.WarpAndBlend.C86_count",
    "Tandem.WarpAndBlend.C86_line",
    "Tandem.WarpAndBlend.C86_degree_zero",
    "Tandem.WarpAndBlend.C86_symmetric_triangle",
    "Tandem.WarpAndBlend.C86_symmetric_tetrahedron",
    "Tandem.WarpAndBlend.C86_edge",
    "Tandem.WarpAndBlend.C86_face",
    "Tandem.WarpAndBlend.C86_vertex",
    "Tandem.WarpAndBlend.C86_conforming"
   ],
   "note": ""
  },
  {
   "property": "C87",
   "status": "proved",
   "theorems": [
    "Tandem.EigDeflate.C87_orthonormalize",
    "Tandem.EigDeflate.C87_symmetrize",
    "Tandem.EigDeflate.C87_max",
    "Tandem.EigDeflate.C87_min",
    "Tandem.EigDeflate.C87_full",
    "Tandem.EigDeflate.C87_apply",
    "Tandem.EigDeflate.C87_deflates",
    "Tandem.EigDeflate.C87_relaxation",
    "Tandem.EigDeflate.C87_presmoothing_lost"
   ],
   "note": ""
  },
  {
   "property": "C62",
   "status": "proved",
   "theorems": [
    "Tandem.Error.C62_map",
    "Tandem.Error.C62_geometry",
    "Tandem.Error.C62_gradient",
    "Tandem.Error.C62_L2",
    "Tandem.Error.C62_target",
    "Tandem.Error.C62_partition",
    "Tandem.Error.C62_zero",
    "Tandem.Error.C62_accuracy",
    "Tandem.Error.C62_straight",
    "Tandem.Error.C62_H1",
    "Tandem.Error.C62_facets",
    "Tandem.Error.C62_names",
    "Tandem.Error.C62_H1_wrong_entry"
   ],
   "note": ""
  },
  {
   "property": "C52",
   "status": "proved",
   "theorems": [
    "Tandem.Lua.C52_function",
    "Tandem.Lua.C52_method",
    "Tandem.Lua.C52_method_tagged",
    "Tandem.Lua.C52_hasMember",
    "Tandem.Lua.C52_constant",
    "Tandem.Lua.C52_history",
    "Tandem.Lua.C52_errors_leak"
   ],
   "note": ""
  },
  {
   "property": "C88",
   "status": "proved",
   "theorems": [
    "Tandem.Scenario.C88_seas",
    "Tandem.Scenario.C88_elasticity",
    "Tandem.Scenario.C88_poisson",
    "Tandem.Scenario.C88_set",
    "Tandem.Scenario.C88_no_table",
    "Tandem.Scenario.C88_friction",
    "Tandem.Scenario.C88_constants_required",
    "Tandem.Scenario.C88_params"
   ],
   "note": ""
  },
  {
   "property": "C89",
   "status": "proved",
   "theorems": [
    "Tandem.CurvilinearBuild.C89_equidistant",
    "Tandem.CurvilinearBuild.C89_warp_blend",
    "Tandem.CurvilinearBuild.C89_throws",
    "Tandem.CurvilinearBuild.C89_nodes",
    "Tandem.CurvilinearBuild.C89_no_gaps",
    "Tandem.CurvilinearBuild.C89_points",
    "Tandem.CurvilinearBuild.C89_normals",
    "Tandem.CurvilinearBuild.C89_reproduces",
    "Tandem.CurvilinearBuild.C89_mesh_size",
    "Tandem.CurvilinearBuild.C89_tags",
    "Tandem.CurvilinearBuild.C89_volume_data",
    "Tandem.CurvilinearBuild.C89_volume",
    "Tandem.CurvilinearBuild.C89_volume_straight",
    "Tandem.CurvilinearBuild.C89_facet_data",
    "Tandem.CurvilinearBuild.C89_volume_function",
    "Tandem.CurvilinearBuild.C89_slip"
   ],
   "note": ""
  },
  {
   "property": "C90",
   "status": "proved",
   "theorems": [
    "Tandem.SeasOp.C90_fd_rhs",
    "Tandem.SeasOp.C90_fd_initial",
    "Tandem.SeasOp.C90_fd_initial_zero",
    "Tandem.SeasOp.C90_fd_initial_stale",
    "Tandem.SeasOp.C90_qd_assemble",
    "Tandem.SeasOp.C90_qd_rhs",
    "Tandem.SeasOp.C90_cfl",
    "Tandem.SeasOp.C90_setup"
   ],
   "note": "local kernels are abstract: the theorems fix the arguments they are called with. C90_fd_initial_stale documents the stale ghost displacement in SeasFDOperator::initial_condition."
  },
  {
   "property": "C53",
   "status": "proved",
   "theorems": [
    "Tandem.Main.C53_argv",
    "Tandem.Main.C53_words",
    "Tandem.Main.C53_keywords",
    "Tandem.Main.C53_abbreviations",
    "Tandem.Main.C53_bc_word",
    "Tandem.Main.C53_bc_lookup",
    "Tandem.Main.C53_relative_path",
    "Tandem.Main.C53_parent_directory",
    "Tandem.Main.C53_mesh_format",
    "Tandem.Main.C53_precedence",
    "Tandem.Main.C53_required_in_file",
    "Tandem.Main.C53_valid",
    "Tandem.Main.C53_valid_sections",
    "Tandem.Main.C53_same_decision",
    "Tandem.Main.C53_main",
    "Tandem.Main.C53_writers",
    "Tandem.Main.C53_prefix_unchecked",
    "Tandem.Main.C53_options",
    "Tandem.Main.C53_section_options"
   ],
   "note": "Model of main, configuration schema, keyword converters, paths, mesh parser selection and add_writers. Numbers are rational (inf/nan left out); argparse, toml++ and number parsing are parameters. Findings: keywords are accepted when abbreviated, even empty (C53_abbreviations); a required value missing in the file cannot be given on the command line (C53_required_in_file); only fault/domain prefix clashes are detected (C53_prefix_unchecked)."
  },
  {
   "property": "C91",
   "status": "proved",
   "theorems": [
    "Tandem.LinearSolver.C91_hierarchy",
    "Tandem.LinearSolver.C91_spd",
    "Tandem.LinearSolver.C91_construct",
    "Tandem.LinearSolver.C91_poisson",
    "Tandem.LinearSolver.C91_elasticity",
    "Tandem.LinearSolver.C91_degree_zero",
    "Tandem.LinearSolver.C91_numbering",
    "Tandem.LinearSolver.C91_preallocation",
    "Tandem.LinearSolver.C91_warmup"
   ],
   "note": "Exact real entries; matrix products, transposition and addition of blocks by their documented PETSc effect; Krylov iteration and smoothing not modelled. C91_poisson and C91_elasticity show that the hypotheses Transfers and Independent of C91_hierarchy, C91_spd, C91_construct hold for the modal and nodal interpolation; C91_numbering discharges the numbering hypothesis."
  },
  {
   "property": "C49",
   "status": "proved",
   "theorems": [
    "Tandem.LogTime.C49_exact",
    "Tandem.LogTime.C49_text",
    "Tandem.LogTime.C49_injective",
    "Tandem.LogTime.C49_well_written",
    "Tandem.LogTime.C49_zero",
    "Tandem.LogTime.C49_nonempty",
    "Tandem.LogTime.C49_negative"
   ],
   "note": "Exact rational arithmetic; range of PetscInt and rounding of the seconds by operator<< not modelled."
  },
  {
   "property": "C69",
   "status": "proved",
   "theorems": [
    "Tandem.TSSerial.C69_roundtrip",
    "Tandem.TSSerial.C69_layout_checked",
    "Tandem.TSSerial.C69_class_checked",
    "Tandem.TSSerial.C69_controller_read_twice",
    "Tandem.TSSerial.C69_resume",
    "Tandem.TSSerial.C69_tableau_not_checked",
    "Tandem.TSSerial.C69_options_override",
    "Tandem.TSSerial.C69_nested_needs_upgrade"
   ],
   "note": "Files as lists of tagged values; PETSc's own TSAdaptView/DMView/DMTSView as opaque symmetric entries. C69_resume: any step function that depends on the stored state and the configuration only."
  },
  {
   "property": "C92",
   "status": "proved",
   "theorems": [
    "Tandem.TimeSolver.C92_rhs_arguments",
    "Tandem.TimeSolver.C92_rhs",
    "Tandem.TimeSolver.C92_initial",
    "Tandem.TimeSolver.C92_monitor_arguments",
    "Tandem.TimeSolver.C92_monitors",
    "Tandem.TimeSolver.C92_fsal",
    "Tandem.TimeSolver.C92_step_limit",
    "Tandem.TimeSolver.C92_load_root",
    "Tandem.TimeSolver.C92_no_load",
    "Tandem.TimeSolver.C92_load_not_collective"
   ],
   "note": "Vectors in a store with handles; hypotheses Nodup/disjoint: PETSc duplicates vectors for results. The integrator itself is PETSc's."
  },
  {
   "property": "C93",
   "status": "proved",
   "theorems": [
    "Tandem.Static.C93_options",
    "Tandem.Static.C93_valid",
    "Tandem.Static.C93_calls",
    "Tandem.Static.C93_collective",
    "Tandem.Static.C93_reports",
    "Tandem.Static.C93_profile",
    "Tandem.Static.C93_main",
    "Tandem.Static.C93_same_decision",
    "Tandem.Static.C93_not_converged"
   ],
   "note": "Schema, decisions, trace of collective operations and messages of static.cpp; numbers and PETSc failures are left out. Weakness proved: exit code does not tell whether the solver converged."
  },
  {
   "property": "C94",
   "status": "proved",
   "theorems": [
    "Tandem.FaultOutput.C94_fault_points",
    "Tandem.FaultOutput.C94_law_parameters",
    "Tandem.FaultOutput.C94_fault_values",
    "Tandem.FaultOutput.C94_raw_state",
    "Tandem.FaultOutput.C94_parameter_output",
    "Tandem.FaultOutput.C94_drawn_in_place",
    "Tandem.FaultOutput.C94_domain_points",
    "Tandem.FaultOutput.C94_jacobian",
    "Tandem.FaultOutput.C94_probe",
    "Tandem.FaultOutput.C94_hdf5",
    "Tandem.FaultOutput.C94_hdf5_drops_second"
   ],
   "note": "Real arithmetic. The output of one rank; the concatenation over ranks is C39. Points, chart, law parameters, values, derivatives, probe tables and HDF5 values; C94_hdf5_drops_second states what happens with two functions."
  },
  {
   "property": "C95",
   "status": "proved",
   "theorems": [
    "Tandem.FaultOutput.C95_pre_init",
    "Tandem.FaultOutput.C95_init",
    "Tandem.FaultOutput.C95_rhs"
   ],
   "note": "Generic numbers with the comparison rules of double (IsNumberOrder; NaN allowed). State vectors as flat memory with blocks."
  },
  {
   "property": "C96",
   "status": "proved",
   "theorems": [
    "Tandem.OutputSeries.C96_crash",
    "Tandem.OutputSeries.C96_complete",
    "Tandem.OutputSeries.C96_names",
    "Tandem.OutputSeries.C96_progress",
    "Tandem.OutputSeries.C96_ends",
    "Tandem.OutputSeries.C96_can_finish",
    "Tandem.OutputSeries.C96_last_incomplete",
    "Tandem.OutputSeries.C96_list_lost",
    "Tandem.OutputSeries.C96_distinct",
    "Tandem.OutputSeries.C96_restart"
   ],
   "note": "File system as a map from names to contents, a file is unreadable between fopen and fclose; opening never fails; only the MPI_Allreduce orders the ranks. C96_last_incomplete and C96_list_lost: the stated exceptions happen."
  },
  {
   "property": "C97",
   "status": "proved",
   "theorems": [
    "Tandem.Cfl.C97_form",
    "Tandem.Cfl.C97_spectrum",
    "Tandem.Cfl.C97_prepare",
    "Tandem.Cfl.C97_step",
    "Tandem.Cfl.C97_units",
    "Tandem.Cfl.C97_gradient_reference",
    "Tandem.Cfl.C97_step_straight"
   ],
   "note": "Exact reals. C97_step_straight has no analytic hypothesis: affine elements, degrees 1-10 (2D) and 1-5 (3D; the 3D table entries 6-10 are not checked, for them C97_step assumes the inverse gradient inequality), coefficient rows that are convex combinations, density >= 1. C97_units: the penalty part of the bound lacks the inverse density, so the step depends on the unit of mass; without density >= 1 only C97_spectrum holds. That the time integrator's stability region contains these steps (the factor cfg.cfl) is not covered."
  },
  {
   "property": "C98",
   "status": "proved",
   "theorems": [
    "Tandem.Material.C98_minimiser",
    "Tandem.Material.C98_poisson",
    "Tandem.Material.C98_elasticity",
    "Tandem.Material.C98_reproduces",
    "Tandem.Material.C98_moments",
    "Tandem.Material.C98_values",
    "Tandem.Material.C98_ghost",
    "Tandem.Material.C98_all",
    "Tandem.Material.C98_output",
    "Tandem.Material.C98_negative"
   ],
   "note": "Exact reals; Eigen's LU solve is the inverse. C98_negative: positive samples can give a negative nodal coefficient and with it a negative penalty, because prepare_penalty takes the minimum and maximum of the coefficients."
  },
  {
   "property": "C99",
   "status": "proved",
   "theorems": [
    "Tandem.Construct.C99_volumes",
    "Tandem.Construct.C99_poisson",
    "Tandem.Construct.C99_elasticity",
    "Tandem.Construct.C99_poisson_matrix",
    "Tandem.Construct.C99_elasticity_matrix",
    "Tandem.Construct.C99_poisson_distribution",
    "Tandem.Construct.C99_elasticity_distribution"
   ],
   "note": "Exact reals. Composes the models of the local meshes (C33), the geometry (C58, C62, C77), the scatter (C18), the projection (C98), the penalties (C75) and the time step (C97). The quadrature rules, nodes and the scatter plans enter by hypotheses (C57, C61, C82, C18). Positive semidefiniteness and the time step need a material that is constant on each region: C98_negative shows that strongly varying material can break them."
  },
  {
   "property": "C100",
   "status": "proved",
   "theorems": [
    "Tandem.SeasRun.C100_fd_volume",
    "Tandem.SeasRun.C100_fd_last",
    "Tandem.SeasRun.C100_fd_fsal",
    "Tandem.SeasRun.C100_fd_stale",
    "Tandem.SeasRun.C100_fd_schedule",
    "Tandem.SeasRun.C100_static",
    "Tandem.SeasRun.C100_static_requests",
    "Tandem.SeasRun.C100_fd_no_facets",
    "Tandem.SeasRun.C100_solution",
    "Tandem.SeasRun.C100_params",
    "Tandem.SeasRun.C100_dofs_domain",
    "Tandem.SeasRun.C100_dofs_fault",
    "Tandem.SeasRun.C100_mesh_size",
    "Tandem.SeasRun.C100_starts",
    "Tandem.SeasRun.C100_qd_calls",
    "Tandem.SeasRun.C100_green_calls",
    "Tandem.SeasRun.C100_fd_calls",
    "Tandem.SeasRun.C100_collective",
    "Tandem.SeasRun.C100_reports",
    "Tandem.SeasRun.C100_unknown_mode"
   ],
   "note": "Exact numbers; sums of 64-bit counters without overflow. The integrator is an arbitrary sequence of callbacks. C100_fd_stale (fault output of fully dynamic runs with integrators that are not first-same-as-last), C100_fd_no_facets and C100_unknown_mode state deviations found. The writers are those of C53, their files those of C94 and C96, the quasi-dynamic monitor is C48."
  },
  {
   "property": "C101",
   "status": "proved",
   "theorems": [
    "Tandem.PatchTest.C101_modal_coefficients",
    "Tandem.PatchTest.C101_poisson",
    "Tandem.PatchTest.C101_nodal_coefficients",
    "Tandem.PatchTest.C101_elasticity",
    "Tandem.PatchTest.C101_poisson_patch",
    "Tandem.PatchTest.C101_elasticity_patch"
   ],
   "note": "Exact arithmetic; straight elements and material that is constant on each region. C101_poisson and C101_elasticity take a solution for each element, C101_*_patch show that one polynomial on the whole domain is such a solution of its own data."
  },
  {
   "property": "C102",
   "status": "proved",
   "theorems": [
    "Tandem.Definite.C102_elasticity_definite",
    "Tandem.Definite.C102_elasticity_unique",
    "Tandem.Definite.C102_elasticity_exact",
    "Tandem.Definite.C102_poisson_definite",
    "Tandem.Definite.C102_poisson_unique",
    "Tandem.Definite.C102_poisson_exact"
   ],
   "note": "Poisson's equation: C102_poisson_definite, C102_poisson_unique, C102_poisson_exact; elasticity: C102_elasticity_definite, C102_elasticity_unique, C102_elasticity_exact. Equality in the trace inequality on all facets of an element forces gradient (rows of the stress) to be parallel to all normals; what is left are constants (rigid motions) on the elements, without jumps, zero where values are prescribed; a rigid motion that vanishes on one facet is zero."
  },
  {
   "property": "C103",
   "status": "proved",
   "theorems": [
    "Tandem.Direct.C103_elasticity",
    "Tandem.Direct.C103_fault_maps",
    "Tandem.Direct.C103_poisson",
    "Tandem.GreenOp.C103_green_apply"
   ],
   "note": "C103_elasticity, C103_poisson: existence, superposition and equality of both modes; C103_green_apply: the product with the operator of C44 for any linear response; C103_fault_maps: the boundary maps of C31 number every facet of the fault once. Assumed: the linear solver is exact, interior penalty method, material constant on each region, operator and boundary traction complete as C44 proves; the ghost exchange of slip and displacement is C18's and is modelled as reading the value of the facet or element."
  },
  {
   "property": "C104",
   "status": "proved",
   "theorems": [
    "Tandem.WaveEnergy.C104_balance",
    "Tandem.WaveEnergy.C104_locked",
    "Tandem.WaveEnergy.C104_conserved",
    "Tandem.Construct.C104_energy",
    "Tandem.WaveEnergy.C104_solvable",
    "Tandem.WaveEnergy.C104_unique",
    "Tandem.WaveEnergy.C104_wave_rhs"
   ],
   "note": "C104_energy: all statements from the mesh through the constructors; C104_balance, C104_locked, C104_conserved, C104_solvable and C104_unique: for any distributed mesh with a symmetric matrix. The equations are those of C81_wave_rhs. Assumed: interior penalty method, straight elements, material constant on each region; slip and boundary data are given functions of time (the friction law that drives the slip is not part of the energy balance); continuous time (the time step is C97's)."
  },
  {
   "property": "C105",
   "status": "proved",
   "theorems": [
    "Tandem.Profile.C105_summary",
    "Tandem.Profile.C105_rank_order",
    "Tandem.Profile.C105_times",
    "Tandem.Profile.C105_add",
    "Tandem.Profile.C105_table",
    "Tandem.Profile.C105_fd",
    "Tandem.Profile.C105_stop_twice",
    "Tandem.TablePrinter.C105_header",
    "Tandem.TablePrinter.C105_lines",
    "Tandem.TablePrinter.C105_text"
   ],
   "note": "Proved for the model of Stopwatch, Profile and Summary. Assumed: exact arithmetic for times, clock readings given as integers of nanoseconds (any, also not monotone), the same regions in the same order on all ranks (the code gathers with the region numbers of each rank), a column of zero time has no GFLOPS. C105_header, C105_lines, C105_text: lines and columns of the text, for given texts of the items (not number formats). C105_fd: the three regions of SeasFDOperator. C105_stop_twice records a finding: an end without a begin of its own counts from the last begin, so its interval is counted again. Second finding: SeasFDOperator::rhs measures the evaluation of du under the name \"dv\" and that of dv (the application of the operator) under \"du\"; C105_fd states what each name measures."
  },
  {
   "property": "C106",
   "status": "proved",
   "theorems": [
    "Tandem.CheckBc.C106_check_bc",
    "Tandem.CheckBc.C106_file"
   ],
   "note": "C106_check_bc: from the distributed mesh through getLocalMesh(0), the facet table, the incidence maps and the boundary adapter. C106_file: with the boundary conditions as they were read, in any distribution, through the rendezvous exchange of C30. Assumed: a boundary mesh exists (otherwise the program ends with an exception that is not caught). Not modelled here: positions of the points from element and facet number (Curvilinear; C89) and the text of the file (C40). Observation: a facet between elements of two ranks is written by both."
  }
 ]
}