{
 "C01": {
  "note": "unbounded naturals; unflatten with a zero non-last extent is division by zero (C01_unflatten_ub_iff)"
 },
 "C02": {
  "note": "holds for all-positive extents; with a zero inner extent the iteration visits an out-of-range index (proved, with witness)"
 },
 "C03": {
  "note": "vector part"
 },
 "C10": {
  "note": "the keyword table is finite and compared by kernel evaluation; the equality of incremental and whole-string hash is for all strings"
 },
 "C14": {
  "note": "index lists longer than 2^64-2 entries excluded"
 },
 "C15": {
  "note": "exact arithmetic; zero ranks is a division by zero (proved)"
 },
 "C16": {
  "note": "an id >= dist[procs] runs off the array (C16_id_too_large)"
 },
 "C17": {
  "note": "MPI_Alltoall/MPI_Alltoallv semantics assumed from the standard; arbitrary arrival order"
 },
 "C18": {
  "note": "MPI point-to-point semantics assumed; consistency of the distributed faces is a hypothesis with a proved sufficient condition"
 },
 "C34": {
  "note": "the claim is false of the code: the lexer does NOT terminate on every input. C34_every_stream: on every text the calls end, or after some calls the reader is stuck for ever; C34_getToken_hangs_iff and C34_unknown_token_stuck characterise the stuck states exactly. The round trip holds for printed tokens separated by arbitrary non-empty white space and ended by exactly one white-space character (C34_roundtrip_partial; with more or none the lexer hangs)"
 },
 "C35": {
  "note": "well-formed files only deliver; defects on malformed files are stated as theorems"
 },
 "C20": {
  "note": "std::array comparison and std::sort assumed from the standard"
 },
 "C21": {
  "note": "partition array supplied by ParMETIS is an arbitrary list; C21_bad_target covers out-of-range entries"
 },
 "C24": {
  "note": "volumeTagData_ is not permuted by permute (C24_volume_tags_not_permuted); dormant since only DD<D faces are permuted"
 },
 "C22": {
  "note": "the recorded owner is the rendezvous rank of the face, which need not hold the face (C22_owner_may_not_hold)"
 },
 "C23": {
  "note": "any overlap, any number of ranks, any traversal order of unordered containers; MPI_Alltoallv semantics assumed; vertex numbers below 2^64-1"
 },
 "C25": {
  "note": "valid (conforming) meshes; incidence as computed by LocalSimplexMesh"
 },
 "C30": {
  "note": "boundary mesh facets found by lookup, None otherwise"
 },
 "C26": {
  "note": "dimensions 2 and 3; uint64 overflow not modelled; coordinates in an arbitrary ordered field; an empty direction divides by zero on every rank (C26_empty_direction_ub)"
 },
 "C27": {
  "note": "conforming: facet counts for all mesh sizes; tiling of a cell proved over any ordered field"
 },
 "C28": {
  "note": "the documented bound is refuted (C28_documented_bound_fails); the true bound 1.5 h is proved"
 },
 "C29": {
  "note": "index above the last boundary reads behind the array (C29_out_of_range)"
 },
 "C50": {
  "note": "needs non-decreasing region boundaries from 0 to N"
 },
 "C12": {
  "note": "defaults are not validated, scalars in place of tables are read as empty tables, trailing garbage of integers is accepted, iEquals is a prefix test: all stated as theorems"
 },
 "C13": {
  "note": "set_constant on a strided view writes outside of the view and copy_values diverges for an empty inner extent: stated as theorems"
 },
 "C19": {
  "status": "partial",
  "note": "exactness of the mask is refuted: 1 << (cpu%64) on int is undefined for every CPU set that is converted (C19_conversion_always_undefined); the value x86 produces is characterised exactly"
 },
 "C38": {
  "note": "the text printed for a number is a parameter; file operations succeed; two probes with the same name share a file and lose data (C38_same_file_lost); a restart appends, it does not remove rows written after the checkpoint"
 },
 "C39": {
  "note": "for pointDim 1, 2, 3; also the gathered array of a node and the alignment of point data with points"
 },
 "C40": {
  "note": "full round trip through a reader of the VTK appended format, raw and zlib (zlib itself a parameter with uncompress(compress x) = x); uint64 wrap-around of offsets not modelled; cells need fewer than 2^31 points"
 },
 "C41": {
  "note": "distances from a linear order (no NaN); MPI_Allreduce semantics assumed"
 },
 "C42": {
  "note": "HDF5 library semantics of set_extent/hyperslab writes assumed; rewriting an existing step > 0 reads out of bounds and a restart with checkpointing throws on the first data set (both stated as theorems)"
 },
 "C65": {
  "note": "degree zero writes out of bounds (C65_degree_zero_out_of_bounds)"
 },
 "C66": {
  "note": "MPI_Scan/Allreduce semantics assumed"
 },
 "C67": {
  "note": "holds only on ranks that have a longest name; otherwise the buffer is read out of bounds (C67_short_names_out_of_bounds)"
 },
 "C43": {
  "note": "exact comparison arithmetic; the moment-rate writer does not follow the rule: its second output ignores t_min and repeats step 0 (C43_moment_rate_*)"
 },
 "C45": {
  "note": "rename/write as atomic steps of a file system; holds within a run for limited_size >= 2; refuted for limited_size = 1 and for a run restarted from slot 0 (witness theorems); restart with limited storage only under the stated slot condition (C45_limited_restart_partial)",
  "status": "partial"
 },
 "C46": {
  "note": "max_degree = 0 with TwoLevel gives the list {0,0} (C46_degree_zero)"
 },
 "C48": {
  "note": "true exactly for FSAL integrators; refuted for non-FSAL integrators, for moment-rate writers and after a restart (witness theorems)"
 },
 "C68": {
  "note": "exact real times; at least one step"
 },
 "C44": {
  "note": "same number of ranks in all jobs: proved for every crash history; change of the number of ranks: proved after completion, refuted before (C44_unfinished_change characterises exactly when it goes wrong), refuted for gf_vec.bin (two witnesses); linear solver idealised as independent of the partition",
  "status": "partial"
 },
 "C51": {
  "note": "PETSc ownership layout (prefix sums of local sizes) and MPI_Scan assumed from their documentation"
 },
 "C31": {
  "note": "constructor proved from the distributed mesh (C33_local_meshes shows getLocalMesh(1) produces such views); scatter delivers the lower rank's data to the higher rank"
 },
 "C32": {
  "note": "block and scalar counts are exact when every volume and skeleton kernel contributes, upper bounds otherwise; PETSc itself not modelled"
 },
 "C33": {
  "note": "proved for the views getLocalMesh(1) computes; arrival order and premature ghost content arbitrary; local kernels are parameters"
 },
 "C70": {
  "note": "exact reals; geometry samples (normals, inverse Jacobians, determinants) are arbitrary inputs; the generated kernels are the einsum formulas of the .py files. Witness theorems show the three cases in which the two paths differ (None on an outer facet, Natural inside, BR2)."
 },
 "C71": {
  "note": "Geometry hypothesis: the two sides of a facet see opposite normals and the same quadrature points. BR2 needs coefficients constant along a facet (witness C71_br2_not_symmetric)."
 },
 "C72": {
  "note": "same geometry hypothesis as C71; IP and BR2"
 },
 "C74": {
  "note": "interior penalty, Poisson and elasticity; for elasticity also the balance of moments (C74_elasticity_moment)"
 },
 "C73": {
  "note": "Poisson and elasticity operator, interior penalty and BR2, exact reals, any mesh and number of ranks; elasticity: every displacement without strain (translations and infinitesimal rotations) moves blocks, not only constants"
 },
 "C75": {
  "note": "Poisson and elasticity operator, exact reals. C75_*_straight: any degree, straight elements, quadratures exact for degree 2N, nonnegative weights, coefficients positive (first Lame parameter not negative) with evaluation rows that are convex combinations; the inverse trace inequality is proved (C75_trace_inequality) and its constant shown optimal (C75_trace_sharp). C75_poisson/C75_elasticity: any geometry, the trace inequality as hypothesis. prepare_penalty takes min and max of projected coefficients, which in general do not bound the values at the points."
 },
 "C47": {
  "note": "exact reals; the solve is proved correct whenever it returns, and to return unless a slip rate of exactly one (the origin of the decimal logarithm) balances the shear stress (C47_terminates_partial; missing: that single case, where exact arithmetic need not end); overflow not modelled; zero shear stress gives NaN without an error (C47_no_shear_stress)",
  "status": "partial"
 },
 "C76": {
  "note": "exact reals; the slip law gives NaN at slip rate zero (C76_at_rest)"
 },
 "C79": {
  "note": "A nearly colinear up vector is not noticed by the tolerance check (C79_refused)."
 },
 "C80": {
  "note": "Poisson::mu_avg takes coefficients for point values: right only for constant modulus (C80_mu_poisson_constant, C80_mu_poisson_wrong)."
 },
 "C59": {
  "note": "Exact arithmetic; the simplex must be affinely independent and within sqrt(DBL_MAX)."
 },
 "C60": {
  "note": "C60_newton characterises Newton's method on affine elements completely; C60_wrong_point, C60_throws and C60_wrong_facet are defects of the code. Convergence on curved elements is not claimed."
 },
 "C81": {
  "note": "The explicit (wave) right-hand side ignores a body force and does not support BR2, as the code."
 },
 "C57": {
  "status": "partial",
  "note": "The classical weight formula at the exact roots is exact for all n, a, b (C57_gauss_formula) and the program's weights are that formula (C57_weights). For the program's points: for all n a stability statement (points close to the roots give an almost exact rule); unconditional for up to 11 points (C57_points, C57_line, C57_triangle_three) by certified Newton iterations. Missing: convergence of the Newton iteration from the cosine guesses for more than 11 points; rounding errors of double."
 },
 "C63": {
  "note": "C63_choice is unconditional. C63_exact is for arbitrary exact tables and depends, where the tensor rule is chosen, on how close Newton's method comes to the roots; C84_program discharges this for the tables of the source up to order 20."
 },
 "C82": {
  "note": "Exact arithmetic; needs an exact rule of order 2N (C57, C63)."
 },
 "C84": {
  "note": "The decimals of the source are taken as exact rationals (C84_rounded bounds the effect of rounding them); generated Lean modules under Verif/Model/Tables are a transcription of the tables by tools/gen_tables.py; arithmetic of the Newton iteration is exact real arithmetic with the tolerance of the code."
 },
 "C85": {
  "note": "proved for all real alpha, beta > -1 with alpha+beta != -1; for alpha+beta=-1 the first coefficient is wrong (C85_wrong_weight, a bug). Norm-NaN checks, monitoring and the eigenvalue estimator are not modelled."
 },
 "C90": {
  "note": "local kernels are abstract: the theorems fix the arguments they are called with. C90_fd_initial_stale documents the stale ghost displacement in SeasFDOperator::initial_condition."
 },
 "C53": {
  "note": "Model of main, configuration schema, keyword converters, paths, mesh parser selection and add_writers. Numbers are rational (inf/nan left out); argparse, toml++ and number parsing are parameters. Findings: keywords are accepted when abbreviated, even empty (C53_abbreviations); a required value missing in the file cannot be given on the command line (C53_required_in_file); only fault/domain prefix clashes are detected (C53_prefix_unchecked)."
 },
 "C91": {
  "note": "Exact real entries; matrix products, transposition and addition of blocks by their documented PETSc effect; Krylov iteration and smoothing not modelled. C91_poisson and C91_elasticity show that the hypotheses Transfers and Independent of C91_hierarchy, C91_spd, C91_construct hold for the modal and nodal interpolation; C91_numbering discharges the numbering hypothesis."
 },
 "C49": {
  "note": "Exact rational arithmetic; range of PetscInt and rounding of the seconds by operator<< not modelled."
 },
 "C69": {
  "note": "Files as lists of tagged values; PETSc's own TSAdaptView/DMView/DMTSView as opaque symmetric entries. C69_resume: any step function that depends on the stored state and the configuration only."
 },
 "C92": {
  "note": "Vectors in a store with handles; hypotheses Nodup/disjoint: PETSc duplicates vectors for results. The integrator itself is PETSc's."
 },
 "C93": {
  "note": "Schema, decisions, trace of collective operations and messages of static.cpp; numbers and PETSc failures are left out. Weakness proved: exit code does not tell whether the solver converged."
 },
 "C11": {
  "note": "exact arithmetic over any linear ordered field; C11_succeeds_continuous: real continuous functions, also with zero tolerance; C11_zero_tolerance_loops: the condition at the origin is needed"
 },
 "C94": {
  "note": "Real arithmetic. The output of one rank; the concatenation over ranks is C39. Points, chart, law parameters, values, derivatives, probe tables and HDF5 values; C94_hdf5_drops_second states what happens with two functions."
 },
 "C95": {
  "note": "Generic numbers with the comparison rules of double (IsNumberOrder; NaN allowed). State vectors as flat memory with blocks."
 },
 "C96": {
  "note": "File system as a map from names to contents, a file is unreadable between fopen and fclose; opening never fails; only the MPI_Allreduce orders the ranks. C96_last_incomplete and C96_list_lost: the stated exceptions happen."
 },
 "C97": {
  "note": "Exact reals. C97_step_straight has no analytic hypothesis: affine elements, degrees 1-10 (2D) and 1-5 (3D; the 3D table entries 6-10 are not checked, for them C97_step assumes the inverse gradient inequality), coefficient rows that are convex combinations, density >= 1. C97_units: the penalty part of the bound lacks the inverse density, so the step depends on the unit of mass; without density >= 1 only C97_spectrum holds. That the time integrator's stability region contains these steps (the factor cfg.cfl) is not covered."
 },
 "C98": {
  "note": "Exact reals; Eigen's LU solve is the inverse. C98_negative: positive samples can give a negative nodal coefficient and with it a negative penalty, because prepare_penalty takes the minimum and maximum of the coefficients."
 },
 "C99": {
  "note": "Exact reals. Composes the models of the local meshes (C33), the geometry (C58, C62, C77), the scatter (C18), the projection (C98), the penalties (C75) and the time step (C97). The quadrature rules, nodes and the scatter plans enter by hypotheses (C57, C61, C82, C18). Positive semidefiniteness and the time step need a material that is constant on each region: C98_negative shows that strongly varying material can break them."
 },
 "C100": {
  "note": "Exact numbers; sums of 64-bit counters without overflow. The integrator is an arbitrary sequence of callbacks. C100_fd_stale (fault output of fully dynamic runs with integrators that are not first-same-as-last), C100_fd_no_facets and C100_unknown_mode state deviations found. The writers are those of C53, their files those of C94 and C96, the quasi-dynamic monitor is C48."
 },
 "C101": {
  "note": "Exact arithmetic; straight elements and material that is constant on each region. C101_poisson and C101_elasticity take a solution for each element, C101_*_patch show that one polynomial on the whole domain is such a solution of its own data."
 },
 "C102": {
  "note": "Poisson's equation: C102_poisson_definite, C102_poisson_unique, C102_poisson_exact; elasticity: C102_elasticity_definite, C102_elasticity_unique, C102_elasticity_exact. Equality in the trace inequality on all facets of an element forces gradient (rows of the stress) to be parallel to all normals; what is left are constants (rigid motions) on the elements, without jumps, zero where values are prescribed; a rigid motion that vanishes on one facet is zero."
 },
 "C103": {
  "note": "C103_elasticity, C103_poisson: existence, superposition and equality of both modes; C103_green_apply: the product with the operator of C44 for any linear response; C103_fault_maps: the boundary maps of C31 number every facet of the fault once. Assumed: the linear solver is exact, interior penalty method, material constant on each region, operator and boundary traction complete as C44 proves; the ghost exchange of slip and displacement is C18's and is modelled as reading the value of the facet or element."
 },
 "C104": {
  "note": "C104_energy: all statements from the mesh through the constructors; C104_balance, C104_locked, C104_conserved, C104_solvable and C104_unique: for any distributed mesh with a symmetric matrix. The equations are those of C81_wave_rhs. Assumed: interior penalty method, straight elements, material constant on each region; slip and boundary data are given functions of time (the friction law that drives the slip is not part of the energy balance); continuous time (the time step is C97's)."
 },
 "C105": {
  "note": "Proved for the model of Stopwatch, Profile and Summary. Assumed: exact arithmetic for times, clock readings given as integers of nanoseconds (any, also not monotone), the same regions in the same order on all ranks (the code gathers with the region numbers of each rank), a column of zero time has no GFLOPS. C105_header, C105_lines, C105_text: lines and columns of the text, for given texts of the items (not number formats). C105_fd: the three regions of SeasFDOperator. C105_stop_twice records a finding: an end without a begin of its own counts from the last begin, so its interval is counted again. Second finding: SeasFDOperator::rhs measures the evaluation of du under the name \"dv\" and that of dv (the application of the operator) under \"du\"; C105_fd states what each name measures."
 },
 "C106": {
  "note": "C106_check_bc: from the distributed mesh through getLocalMesh(0), the facet table, the incidence maps and the boundary adapter. C106_file: with the boundary conditions as they were read, in any distribution, through the rendezvous exchange of C30. Assumed: a boundary mesh exists (otherwise the program ends with an exception that is not caught). Not modelled here: positions of the points from element and facet number (Curvilinear; C89) and the text of the file (C40). Observation: a facet between elements of two ranks is written by both."
 }
}