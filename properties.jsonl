{"id": "C01", "title": "Multi-index flatten and unflatten are mutually inverse", "statement": "For a shape (n_0,...,n_{D-1}), flattening an in-range multi-index gives a number below n_0*...*n_{D-1} that unflattens back to the same multi-index, and flattening the unflattening of any number below that product gives the number back; the first component varies fastest. Unflattening with a zero extent divides by zero.", "quantifier": "every dimension D, every shape, every in-range multi-index, every flat index", "why_tests_cant": "Dimension and shape are unbounded; a test fixes a few shapes.", "anchors": ["src/util/MultiIndex.h: flatten, unflatten"]}
{"id": "C02", "title": "Iterating a multi-index product visits every multi-index exactly once", "statement": "Iterating over product(shape) terminates after exactly n_0*...*n_{D-1} steps and yields every in-range multi-index exactly once in increasing flat order, whenever every extent but the last is positive. (An empty inner extent is the boundary case: a user expects nothing to be yielded.)", "quantifier": "every dimension D >= 1 and every shape", "why_tests_cant": "The carry logic of operator++ must be right for every shape; only induction covers it.", "anchors": ["src/util/MultiIndex.h: MultiIndexIterator::operator++, product"]}
{"id": "C03", "title": "apply_permutation is the gather v'[i] = v[p[i]]", "statement": "apply_permutation(v, p), with p a permutation of 0..n-1, terminates and leaves v'[i] = v[p[i]] for every i; so no element is lost or duplicated. Applied to a tensor on a mode it does the same to that mode and leaves all other index positions aligned.", "quantifier": "every vector length, every content, every permutation", "why_tests_cant": "The in-place cycle walk has to be right for every cycle structure.", "anchors": ["src/util/Algorithm.h: detail::apply_permutation, apply_permutation, SwapTensor"]}
{"id": "C04", "title": "find_blocks is a lossless run-length encoding with maximal runs", "statement": "find_blocks returns block lengths and displacements of equal number such that listing disp, disp+1, ..., disp+len-1 for each block in order reproduces the input index list; every length is at least one, and no two neighbouring blocks could be merged.", "quantifier": "every list of indices", "why_tests_cant": "Holds for arbitrary sequences; the block structure is data dependent.", "anchors": ["src/util/Algorithm.h: find_blocks"]}
{"id": "C05", "title": "Choose<k> enumerates the k-subsets exactly once in lexicographic order, binom(n,k) of them", "statement": "Starting from Choose<k>(n) and calling next() until it returns false visits every strictly increasing k-tuple of numbers below n exactly once in lexicographic order; their number is binom(n,k), and binom agrees with the binomial coefficient.", "quantifier": "every n and k with 1 <= k <= n", "why_tests_cant": "Unbounded n and k; faces of simplices are built with it for every dimension.", "anchors": ["src/util/Combinatorics.h: Choose, binom", "src/mesh/Simplex.h: downward"]}
{"id": "C06", "title": "AllIntegerSums enumerates exactly the non-negative tuples of bounded (or fixed) total", "statement": "Iterating AllIntegerSums<D>(N) terminates and yields every D-tuple of non-negative integers with sum at most N exactly once; with EnableLess=false it yields exactly the tuples with sum equal to N.", "quantifier": "every D >= 1 and every N", "why_tests_cant": "The polynomial and node index sets must be complete for every order and dimension.", "anchors": ["src/util/Combinatorics.h: AllIntegerSumsIterator, AllIntegerSums"]}
{"id": "C07", "title": "Permutation numbers identify permutations", "statement": "Lehmer_to_integer(permutation_to_Lehmer(p)) of a permutation p of 0..N-1 is below N!, and two permutations with the same number are equal; the intermediate 32-bit arithmetic cannot overflow for N <= 12.", "quantifier": "every N and every permutation", "why_tests_cant": "N! permutations for every N.", "anchors": ["src/util/Permutation.h: permutation_to_Lehmer, Lehmer_to_integer"]}
{"id": "C08", "title": "rangeProduct and factorial", "statement": "rangeProduct(a,b) returns the product of all integers from a to b modulo 2^64 (1 if a > b) for every b < 2^64-1, and never terminates for a <= b = 2^64-1; factorial(n) is n! exactly for n <= 20.", "quantifier": "every pair of 64-bit arguments", "why_tests_cant": "2^128 argument pairs; wrap-around at the upper end is not reached by tests.", "anchors": ["src/util/Math.cpp: rangeProduct", "src/util/Math.h: factorial"]}
{"id": "C09", "title": "LinearAllocator hands out aligned, disjoint, in-bounds blocks and the announced sizes suffice", "statement": "For any sequence of allocate(n) calls on an aligned buffer every returned block is aligned, lies in the buffer and is disjoint from all earlier blocks since the last reset; a request that does not fit throws and hands out nothing. If the buffer holds at least the sum of allocation_size(n_i, alignment) elements, then no request in the sequence n_1,n_2,... (all positive) throws.", "quantifier": "every buffer, every power-of-two alignment that is a multiple of sizeof(T), every request history", "why_tests_cant": "Histories of requests are unbounded.", "anchors": ["src/util/LinearAllocator.h: LinearAllocator, allocation_size", "src/util/Scratch.h"]}
{"id": "C10", "title": "The incremental token hash equals the hash of the whole keyword, and keyword hashes do not collide", "statement": "Feeding the characters of a string one at a time through the hash step yields exactly the value computed for the whole string at compile time, for every string; the hashes of the keywords the lexer dispatches on are pairwise different.", "quantifier": "every string; every pair of keywords", "why_tests_cant": "Strings are unbounded.", "anchors": ["src/util/Hash.h: fnv1a, fnv1a_step", "src/io/GMSHLexer.cpp"]}
{"id": "C11", "title": "zeroIn keeps a bracket, terminates and meets its documented tolerance", "statement": "If F(a) and F(b) have opposite sign, zeroIn terminates (in exact arithmetic; for tol > 0, and also for tol = 0 when F is continuous and does not vanish at the origin, where the relative tolerance vanishes) and returns a point x in [min(a,b), max(a,b)] such that F(x) = 0 or there is a point c between a and b with |x - c| <= tol + 4 eps |x| and F(x), F(c) of strictly opposite sign. Equal strict signs are rejected with an exception; a zero at an end point is returned.", "quantifier": "every function F, every interval, every tolerance", "why_tests_cant": "F is an arbitrary function; iteration counts depend on it.", "anchors": ["src/util/Zero.cpp: zeroIn"]}
{"id": "C12", "title": "Schema: defaults, required values and validators", "statement": "Translating a configuration table sets every schema field: to the converted table value when the key is present and passes conversion and validation, to the default when the key is absent and a default exists, and otherwise raises an error that names the field; unknown keys are ignored, and fields do not influence each other.", "quantifier": "every schema and every table", "why_tests_cant": "Key sets, types and values are unbounded.", "anchors": ["src/util/Schema.h: TableSchema::translate, ValueSchema"]}
{"id": "C13", "title": "Tensors: strides, subtensors and reshapes alias the right elements", "statement": "For every shape the default strides enumerate the storage injectively without gaps; a subtensor view's element (i...) is the parent's element at the correspondingly shifted index; reshaping keeps the linear order; so writes through a view change exactly the viewed elements.", "quantifier": "every order, every shape, every slice", "why_tests_cant": "Unbounded shapes and slices.", "anchors": ["src/tensor/Tensor.h", "src/tensor/TensorBase.h", "src/util/MultiIndex.h"]}
{"id": "C14", "title": "Local/ghost composite and sparse block vectors address every block exactly once", "statement": "A sparse block vector has exactly the blocks it was created with, each with its own, non-overlapping storage, so that writing one block changes no other; a composite view returns for block b the local block b if b is below the number of local blocks, the ghost block b if it is listed, and has no other blocks.", "quantifier": "every number of local and ghost blocks, every index list, every block size", "why_tests_cant": "Unbounded block counts.", "anchors": ["src/parallel/LocalGhostCompositeView.h", "src/parallel/SparseBlockVector.h"]}
{"id": "C15", "title": "distribute splits N objects into contiguous, complete, balanced parts", "statement": "distribute(N, procs) returns procs+1 offsets from 0 to N that are non-decreasing and whose consecutive differences differ by at most one.", "quantifier": "every N and every number of processes >= 1", "why_tests_cant": "Unbounded N and process counts.", "anchors": ["src/parallel/Distribute.h: distribute", "src/mesh/GenMesh.cpp"]}
{"id": "C16", "title": "SortedDistributionToRank finds the owning rank", "statement": "For non-decreasing offsets dist[0] = 0 <= ... <= dist[procs], the lookup of an id below dist[procs] returns the unique rank r with dist[r] <= id < dist[r+1].", "quantifier": "every distribution (including empty ranks) and every id", "why_tests_cant": "The starting guess and the walk direction depend on the data; empty parts are the corner cases.", "anchors": ["src/parallel/SortedDistribution.h: SortedDistributionToRank", "src/parallel/SortedDistribution.cpp"]}
{"id": "C17", "title": "All-to-all exchange is lossless, and a reply exchange returns answers to the askers", "statement": "After AllToAllV::exchange every rank holds, ordered by source rank, exactly what was addressed to it; if the receivers transform each received item and the exchange is repeated with swapped counts, then each rank gets back the answers to its own requests in request order.", "quantifier": "every number of ranks, all counts, all contents", "why_tests_cant": "Unbounded rank counts and data distributions.", "anchors": ["src/parallel/CommPattern.h: AllToAllV", "src/parallel/CommPattern.cpp"]}
{"id": "C18", "title": "Scatter delivers the owner's value to every ghost", "statement": "After begin_scatter/wait_scatter every ghost slot of every rank holds the value its owner had for the same global face when the scatter began, every posted receive has a matching send and vice versa; SimpleScatter does the same in place and leaves owned slots unchanged.", "quantifier": "every number of ranks, every consistent distribution of faces, every iteration order of the hash maps, every completion order of the messages, every content and block size", "why_tests_cant": "Unbounded plans and rank counts.", "anchors": ["src/parallel/ScatterPlan.h", "src/parallel/ScatterPlan.cpp", "src/parallel/Scatter.h"]}
{"id": "C19", "title": "CPU masks: the node mask is the union of the worker masks", "statement": "The reported worker mask of a node contains exactly the CPUs used by some worker thread of some rank on that node, and the textual form lists exactly the CPUs in the mask.", "quantifier": "every set of CPU masks", "why_tests_cant": "All 2^n masks.", "anchors": ["src/parallel/Affinity.cpp"]}
{"id": "C20", "title": "Simplices are equal iff they have the same vertex set; downward() lists every face once", "statement": "Two simplices compare equal exactly when their vertex sets are equal, whatever order the vertices were given in; downward<d>() of a simplex lists each of its d-faces exactly once.", "quantifier": "every simplex and every face dimension", "why_tests_cant": "Unbounded vertex numbers.", "anchors": ["src/mesh/Simplex.h"]}
{"id": "C21", "title": "Repartitioning keeps every element and its attached data", "statement": "After partition / repartition / repartitionByHash the multiset of (element, attached data) over all ranks is unchanged: no element is lost, duplicated, or gets another element's data; elements assigned to rank r end up on rank r.", "quantifier": "every number of ranks, every mesh and every partition vector", "why_tests_cant": "Unbounded meshes and rank counts.", "anchors": ["src/mesh/GlobalSimplexMesh.cpp: doPartition", "src/mesh/GlobalSimplexMesh.h: repartitionByHash"]}
{"id": "C22", "title": "Global face numbering is consistent across ranks", "statement": "Every face gets one global id: the same on all ranks that hold it, different faces get different ids, ids are contiguous 0..F-1; all ranks agree on the one owner of a face (its rendezvous rank, which need not hold the face); the owner's datum is attached; and the list of sharing ranks is exactly the set of other ranks holding it.", "quantifier": "every distributed mesh and every number of ranks", "why_tests_cant": "Unbounded meshes and rank counts.", "anchors": ["src/mesh/GlobalSimplexMesh.h: getFaces, getSharedRanks"]}
{"id": "C23", "title": "Ghost overlap contains exactly the needed neighbours", "statement": "With overlap k, each rank's element list consists of its own elements first, followed by exactly the elements of other ranks reachable from an own element by crossing at most k facets, each once and ordered by owner; all ranks agree on element numbers, recorded owners are right, the shared ranks of an element are the other ranks that hold it, and ghosts receive the owner's element data.", "quantifier": "every distributed mesh", "why_tests_cant": "Unbounded meshes.", "anchors": ["src/mesh/GlobalSimplexMesh.cpp: getGhostElements", "src/mesh/GlobalSimplexMesh.h: getElements / deterministic ghost order"]}
{"id": "C24", "title": "Permuting local faces keeps faces, ids, owners and data together", "statement": "After permuting a local face container every per-face attribute (face, global id, owner, shared ranks, mesh data, and volume tags) still belongs to the same face.", "quantifier": "every container and permutation", "why_tests_cant": "Unbounded; attribute arrays are separate vectors.", "anchors": ["src/mesh/LocalFaces.h: permute"]}
{"id": "C25", "title": "Upward and downward incidence are inverse relations", "statement": "Face f is listed among the down-faces of element e exactly when e is listed among the up-elements of f; each facet has one or two up-elements in a valid mesh.", "quantifier": "every local mesh", "why_tests_cant": "Unbounded meshes.", "anchors": ["src/mesh/LocalSimplexMesh.h: downward, upward"]}
{"id": "C26", "title": "Generated meshes do not depend on the number of ranks", "statement": "The concatenation over ranks of the vertices (elements) generated by GenMesh equals the list generated with one rank; their number is the product of (N_d+1) (resp. N_d times the simplices per cube).", "quantifier": "every extent N, dimension 2 and 3, every number of ranks", "why_tests_cant": "Unbounded extents and rank counts.", "anchors": ["src/mesh/GenMesh.cpp", "src/mesh/GenMesh.h"]}
{"id": "C27", "title": "Generated meshes are conforming", "statement": "In a generated mesh the triangulation of a square (cube) face seen from one cell equals the one seen from the adjacent cell, so every interior facet belongs to exactly two elements; the simplices of a cell tile the cell.", "quantifier": "every cell position and every extent, dimensions 2 and 3", "why_tests_cant": "Unbounded cell indices; parity argument.", "anchors": ["src/mesh/GenMesh.cpp: tessellateCube / elements"]}
{"id": "C28", "title": "Generated meshes have the requested resolution", "statement": "Between two corner points GenMesh inserts round(extent/h) cells, so that no cell is wider than 1.5 h as long as every region is at least h/2 wide; the documented bound (cell width <= h) is false, and a first region narrower than h/2 yields vertices that are not numbers.", "quantifier": "every list of ascending corner points, every positive h, exact arithmetic", "why_tests_cant": "Continuous parameters; the documented guarantee fails only for particular ratios of extent and h.", "anchors": ["src/mesh/GenMesh.h: constructor with corner points (initDim)", "src/mesh/GenMesh.cpp: uniformMesh (vertex_pos)"]}
{"id": "C29", "title": "Region lookup finds the containing interval", "statement": "findRegion returns the interval of the sorted region boundaries that contains the coordinate index, for every index in range, also when intervals are adjacent.", "quantifier": "every ascending list of boundaries, every index", "why_tests_cant": "Unbounded region counts.", "anchors": ["src/mesh/GenMesh.cpp / GenMesh.h: region lookup"]}
{"id": "C30", "title": "Boundary conditions reach the right facets", "statement": "However the tagged facets are distributed over the ranks initially, on every rank every facet of the local mesh carries its own tag if it is tagged, and BC::None if it is not.", "quantifier": "every distributed mesh, every distribution of the tagged facets, every number of ranks", "why_tests_cant": "Unbounded meshes and rank counts; the tag travels through two data exchanges and a hash rendezvous.", "anchors": ["src/mesh/GlobalSimplexMesh.h: getFaces", "src/mesh/GlobalSimplexMesh.cpp: repartitionByHash", "src/mesh/MeshData.h: BoundaryData"]}
{"id": "C31", "title": "BoundaryMap numbers boundary faces consecutively, local first, and inverts", "statement": "The map from boundary number to facet and from facet to boundary number are mutually inverse on boundary facets; non-boundary facets are reported as absent; owned boundary facets come first; send and receive lists of a pair of ranks match in order.", "quantifier": "every mesh, every predicate", "why_tests_cant": "Unbounded meshes.", "anchors": ["src/form/BoundaryMap.cpp", "src/form/BoundaryMap.h"]}
{"id": "C32", "title": "Matrix preallocation equals the assembled sparsity", "statement": "The number of blocks preallocated for each row of a DG matrix (diagonal and off-diagonal part, for aij, baij and IS formats) equals the number of distinct blocks the assembly writes in that row, so assembly never allocates and never leaves unused rows.", "quantifier": "every topology and every block size", "why_tests_cant": "Unbounded meshes and partitions.", "anchors": ["src/form/DGOperatorTopo.cpp", "app/common/PetscDGMatrix.cpp"]}
{"id": "C33", "title": "DG operator application never reads ghost values before they have arrived", "statement": "In apply the elements processed before wait_scatter have only local neighbours; every element is processed exactly once; the result of every element is computed from the current local and arrived ghost values.", "quantifier": "every topology and partition", "why_tests_cant": "Communication schedules are arbitrary.", "anchors": ["src/form/DGOperator.h: apply"]}
{"id": "C34", "title": "The mesh lexer makes progress and terminates on every input", "statement": "Repeatedly asking the GMSH lexer for tokens reaches end-of-file after finitely many calls on every byte stream, and a stream consisting of the printed tokens lexes back to those tokens.", "quantifier": "every byte stream", "why_tests_cant": "All byte strings.", "anchors": ["src/io/GMSHLexer.cpp: GMSHLexer::getToken"]}
{"id": "C35", "title": "The mesh parser delivers exactly the nodes and elements of the file", "statement": "For a well-formed MSH 2 file the builder receives exactly the vertices and elements in the file in order, with their tags; malformed sections make the parse fail with an error.", "quantifier": "every well-formed and every malformed file", "why_tests_cant": "All files.", "anchors": ["src/io/GMSHParser.cpp"]}
{"id": "C36", "title": "Mesh builder: elements, boundary tags and node permutations go to the right simplices", "statement": "For every file the builder keeps exactly the D-simplices (sorted vertices, tag) and the (D-1)-simplices (sorted vertices, the boundary condition of the tag) in file order, ignores simplices of lower dimension and throws exactly for a foreign element type or mixed types; for elements of degree n the stored high-order nodes are those of the file, moved by the affine map that reorders the vertices; dropping the high-order nodes from the vertex list is a one-to-one renumbering that keeps elements, facets and coordinates.", "quantifier": "every element list, degree and dimension 1..3", "why_tests_cant": "All meshes.", "anchors": ["src/io/GlobalSimplexMeshBuilder.cpp"]}
{"id": "C37", "title": "HDF5 mesh reader: a facet tag is found for a facet from either side", "statement": "The reader passes every face of the tetrahedra exactly once; its tag is that of the first tetrahedron that has it, so a facet tagged consistently from both sides gets that tag from either side (a tag given only by the second tetrahedron is lost); tetrahedra keep order and group; it fails exactly when a required dataset is missing or the tag count does not match.", "quantifier": "every mesh and tag array", "why_tests_cant": "All meshes.", "anchors": ["src/io/HDF5MeshParser.cpp"]}
{"id": "C38", "title": "Time-series writers: one header, one row per record, well-formed separators, restart appends", "statement": "For every history of writes the file consists of one header (title and column names), followed by one line per record in order, each line with values joined by a single separator and no trailing separator; a run starting at time zero truncates, a restarted run appends.", "quantifier": "every history of writes and restarts, every number of columns >= 1", "why_tests_cant": "Histories unbounded.", "anchors": ["src/io/CSVWriter.h", "src/io/TecplotWriter.h / ScalarWriter", "src/io/TableWriter.h"]}
{"id": "C39", "title": "In-place widening of 2D coordinates to 3D loses nothing", "statement": "The VTU piece converts an array of D-dimensional points to 3-dimensional points in place: component d < D of point i is the old component d of point i, and the remaining components are zero.", "quantifier": "every number of points, D in 1..3", "why_tests_cant": "In-place overlapping copy; every size.", "anchors": ["src/io/VTUWriter.cpp: VTUPiece"]}
{"id": "C40", "title": "VTU appended-data offsets point at the data they describe", "statement": "Each offset announced in the XML header equals the byte position at which the corresponding array (its size header followed by its data) is placed in the appended section, for every sequence of pieces and arrays.", "quantifier": "every sequence of pieces, point data and cell data arrays", "why_tests_cant": "Unbounded array lists and sizes.", "anchors": ["src/io/VTUWriter.cpp: VTUWriter::write, VTUPiece::addPointData"]}
{"id": "C41", "title": "Each probe is written by exactly one rank", "statement": "After duplicate removal every probe is kept by exactly one rank, that rank is at minimal distance among all ranks (the lowest such rank on ties).", "quantifier": "every number of ranks and probes, every distance assignment", "why_tests_cant": "Unbounded ranks and probes.", "anchors": ["src/io/ProbeWriterUtil.h: clean_duplicate_probes"]}
{"id": "C42", "title": "HDF5 hyperslabs partition the dataset", "statement": "The rows written by the ranks are disjoint and cover the dataset; appending time step k leaves earlier time steps unchanged.", "quantifier": "every rank count, every per-rank count, every number of time steps", "why_tests_cant": "Unbounded histories.", "anchors": ["src/io/HDF5Writer.cpp"]}
{"id": "C43", "title": "Adaptive output: never too dense, never too sparse, steps numbered consecutively", "statement": "With an adaptive output interval, the first state is always output, two consecutive outputs are more than t_min apart, the state following a gap greater than t_max is output, and output step numbers are consecutive.", "quantifier": "every time history and slip-rate history", "why_tests_cant": "Histories unbounded.", "anchors": ["app/tandem/AdaptiveOutputStrategy.h", "app/tandem/Writer.h", "app/tandem/Monitor.cpp"]}
{"id": "C44", "title": "Green's function checkpoints survive crashes", "statement": "If the computation of the discrete Green's operator is interrupted at any point (also while a checkpoint is written) and restarted any number of times, the final operator equals the uninterrupted one.", "quantifier": "every crash point and restart schedule, every number of ranks per run", "why_tests_cant": "All crash schedules.", "anchors": ["app/form/SeasQDDiscreteGreenOperator.cpp"]}
{"id": "C45", "title": "Time-stepper checkpoints survive crashes", "statement": "At every moment after the first checkpoint was completed the checkpoint named in last_checkpoint.txt is complete; at most limited_size checkpoints are kept.", "quantifier": "every crash point, every checkpoint schedule", "why_tests_cant": "All crash schedules.", "anchors": ["app/common/ts_util.c"]}
{"id": "C46", "title": "Multigrid level degrees", "statement": "The list of polynomial degrees for the multigrid hierarchy starts at the coarse degree, ends at the maximum degree and is strictly increasing; every strategy gives at most max_degree - coarse + 1 levels.", "quantifier": "every maximum degree, coarse degree and strategy", "why_tests_cant": "Unbounded degrees.", "anchors": ["app/common/MGConfig.cpp"]}
{"id": "C47", "title": "Rate-and-state friction: the slip-rate solve is well posed and consistent", "statement": "For positive effective normal stress, radiation damping and direct effect, there is exactly one slip rate balancing shear traction, it lies in [0, tau/eta], the slip-rate vector is anti-parallel to the traction, and initialising the state from (tau, V_init) makes the solve return |V_init|.", "quantifier": "all real parameters in the admissible range", "why_tests_cant": "Continuum of parameters.", "anchors": ["app/localoperator/DieterichRuinaBase.h", "app/localoperator/RateAndState.h"]}
{"id": "C48", "title": "Monitor output always sees the current state", "statement": "Whenever data for a given time are written, the internal fields (displacement, traction) from which they are computed were computed from that same time and state.", "quantifier": "every sequence of time steps with and without the FSAL property and every set of writers", "why_tests_cant": "Histories unbounded.", "anchors": ["app/tandem/Monitor.cpp", "app/form/SeasQDOperator.cpp"]}
{"id": "C50", "title": "Generated boundary faces carry the condition of their plane and region", "statement": "Every facet of a generated element that lies in the plane through a corner point is put into the boundary mesh with the condition that the user's functional of that direction gives for that plane and for the region that contains the facet in the other directions; facets in no such plane are not put into the boundary mesh.", "quantifier": "every mesh size, every list of regions, every facet of every element, dimensions 2 and 3, every boundary functional", "why_tests_cant": "Unbounded mesh sizes; the region of a facet is found as a maximum over its vertices, which could pick a neighbouring region.", "anchors": ["src/mesh/GenMesh.cpp: extractBoundaryMesh", "src/mesh/GenMesh.h: findRegion, bc_fun_t"]}
{"id": "C51", "title": "Block offsets partition the global index range", "statement": "The offsets computed by each rank from its local sizes tile 0..total-1 contiguously in rank order.", "quantifier": "every number of ranks and every local size", "why_tests_cant": "Unbounded ranks.", "anchors": ["app/form/SeasQDDiscreteGreenOperator.cpp: GreensFunctionIndices", "app/common/PetscVector.h"]}
{"id": "C54", "title": "Singularity-free Jacobi polynomials are the homogenised Jacobi polynomials", "statement": "SingularityFreeJacobiP(n,a,b,x,y) equals y^n P_n^{(a,b)}(x/y) for y != 0, is a polynomial in x,y (so defined at y = 0), and agrees with JacobiP at y = 1; the AndDerivatives variant returns the true partial derivatives.", "quantifier": "every degree n and all real arguments", "why_tests_cant": "Recurrences over unbounded degree; continuum of arguments.", "anchors": ["src/basis/Functions.cpp"]}
{"id": "C55", "title": "Dubiner gradients are the derivatives of the Dubiner polynomials", "statement": "gradDubinerP returns the partial derivatives of DubinerP in every direction at every point, in 2D and 3D. (In 1D the code returns half the derivative.)", "quantifier": "every multi-degree and every point", "why_tests_cant": "Continuum of points.", "anchors": ["src/basis/Functions.h", "src/basis/Functions.cpp"]}
{"id": "C56", "title": "Node count and degree determine each other", "statement": "num_nodes_to_degree inverts the number of Lagrange nodes binom(N+D,D) for each degree >= 1 and returns no value for any other number of nodes.", "quantifier": "every number", "why_tests_cant": "Unbounded numbers.", "anchors": ["src/basis/Util.h"]}
{"id": "C58", "title": "Element maps are invertible, facet parametrisations agree and facet normals are right", "statement": "The affine map of the reference simplex to a general simplex maps reference vertices to the simplex vertices and, for a non-degenerate simplex, is the inverse of the map back. A facet point with given facet parameters is the same physical point seen from both adjacent elements. The normal of a facet is perpendicular to the facet, points away from the element's opposite vertex, and has the length (area) of the facet's parametrisation; on a valid mesh the normals of the two elements sharing a facet are exactly opposite.", "quantifier": "every non-degenerate simplex and every valid conforming mesh, D = 2, 3 (affine map: every D)", "why_tests_cant": "Continuum of geometries.", "anchors": ["src/geometry/Affine.h", "src/geometry/Curvilinear.cpp", "src/form/DGCurvilinearCommon.cpp"]}
{"id": "C59", "title": "The closest point of a simplex is found exactly", "statement": "For every non-degenerate simplex (any number of vertices, any dimension) and every point, the closest-point finder returns non-negative barycentric coordinates with sum one, the point of the simplex with these coordinates and its Euclidean distance to the given point, and no point of the simplex is closer; the answer is unique.", "quantifier": "every affinely independent family of vertices and every query point", "why_tests_cant": "A continuum of simplices and points; every face may be the one that is hit.", "anchors": ["src/geometry/SimplexDistance.h: SimplexDistance::closest, closest2, BarycentricSolver"]}
{"id": "C60", "title": "Point location reports true positions", "statement": "Whatever the geometry, the point locator throws, reports that nothing was found, or reports an element of the range, reference coordinates inside the reference simplex, the physical point these are mapped to and its true distance to the query, not larger than what it computed for any other candidate. On affine elements a point inside an element is found with distance zero, and a probe on a fault facet is found on that facet, if its last coordinate is not within the tolerance of that of the start point of Newton's method (where the code fails: a wrong point is reported, or it throws).", "quantifier": "every geometry, range of elements, point and parameters", "why_tests_cant": "A continuum of meshes and points; the failing points form thin strips.", "anchors": ["src/geometry/PointLocator.h: PointLocator::locate", "src/geometry/PointLocator.cpp: PointLocator::xInv, inside_bbox, BoundaryPointLocator::locate"]}
{"id": "C65", "title": "Fault vertices in the HDF5 file are the corners of each fault facet", "statement": "The vertex array written to the moment-rate HDF5 file has, for every fault facet in order, the coordinates of the facet's D corner vertices (the first D nodes), for every polynomial degree at least one.", "quantifier": "every number of facets, every degree, dimension and coordinates", "why_tests_cant": "The facets' node blocks overlap in the buffer; correctness depends on the order of the writes for every number of facets and nodes.", "anchors": ["src/io/HDF5Adapter.h: getVertices", "app/tandem/Writer.h: MomentRateWriter::write_static"]}
{"id": "C66", "title": "The parallel VTU file lists exactly the files that were written", "statement": "Whatever the assignment of ranks to nodes, the .pvtu file lists exactly the .vtu files written by the node leaders, in order, no two ranks write the same file, and exactly one rank writes the .pvtu file.", "quantifier": "every number of ranks and every grouping into nodes", "why_tests_cant": "Unbounded number of ranks and groupings.", "anchors": ["src/io/VTUWriter.cpp: VTUWriter::write"]}
{"id": "C67", "title": "Probe names in the HDF5 file", "statement": "The name stored for a probe in the HDF5 probe file is the probe's name padded with blanks.", "quantifier": "every distribution of probes over ranks, all names", "why_tests_cant": "Unbounded number of ranks, probes and name lengths.", "anchors": ["src/io/HDF5ProbeWriter.cpp: initialize_datasets"]}
{"id": "C68", "title": "Time-step statistics", "statement": "The minimum and maximum time step reported at the end of a run are the smallest and the largest difference of two consecutive monitored times.", "quantifier": "every time history", "why_tests_cant": "Histories unbounded.", "anchors": ["app/tandem/Monitor.cpp: Monitor::monitor, Monitor::update_dt_limits"]}
{"id": "C70", "title": "Matrix-free operator equals the assembled matrix", "statement": "With the interior-penalty method and boundary conditions that make sense (no Natural tag inside, every outer facet tagged), on every number of ranks, after the ghost exchange, applying the operator without a matrix to a vector gives on every owned element the same result as multiplying the rows of the assembled matrix with the vector.", "quantifier": "every conforming distributed mesh, every boundary-condition assignment that fits, all coefficients, penalties, geometry samples, quadrature rules and basis functions, every vector", "why_tests_cant": "Holds over all meshes, partitions, tags and real coefficient fields; tests compare one mesh.", "anchors": ["src/form/DGOperator.h", "src/form/DGOperatorTopo.cpp", "app/localoperator/Poisson.cpp", "app/localoperator/Elasticity.cpp", "app/kernels/poisson.py", "app/kernels/elasticity.py"]}
{"id": "C71", "title": "The assembled operator is symmetric", "statement": "The matrix assembled over all ranks is symmetric: the block coupling element e to e' is the transpose of the block coupling e' to e, also if the two elements live on different ranks and each facet is seen with opposite orientation by its owners.", "quantifier": "every conforming distributed mesh, all tags, coefficients and penalties; for BR2 coefficients constant along each facet", "why_tests_cant": "Over all meshes, partitions and coefficient fields.", "anchors": ["app/localoperator/Poisson.cpp", "app/localoperator/Elasticity.cpp", "app/kernels/poisson.py", "app/kernels/elasticity.py", "src/form/DGOperator.h"]}
{"id": "C72", "title": "The assembled operator does not depend on the distribution", "statement": "Two distributions of the same mesh over any numbers of ranks give the same global matrix: the block of element pair (e,e') depends only on the mesh, not on ranks, local numbering or which element sees the facet first.", "quantifier": "every pair of distributions of one mesh", "why_tests_cant": "All partitions and all meshes.", "anchors": ["app/localoperator/Poisson.cpp", "app/localoperator/Elasticity.cpp", "src/form/DGOperatorTopo.cpp", "src/form/DGOperator.h"]}
{"id": "C73", "title": "Rigid block motion with matching slip is a discrete solution", "statement": "If every element moves by a constant (elasticity: by any infinitesimal rigid motion), the motions agree across facets without condition, jump by the prescribed slip across fault or interior Dirichlet facets and match the prescribed values on outer facets, and there is no body force, then the assembled system is satisfied exactly (A u = b).", "quantifier": "every distributed mesh, boundary tags, coefficients, penalty, IP and BR2", "why_tests_cant": "Over all meshes and coefficient fields.", "anchors": ["app/localoperator/Poisson.cpp: assemble_*, rhs_*", "app/kernels/poisson.py", "app/localoperator/Elasticity.cpp: assemble_*, rhs_*", "app/kernels/elasticity.py"]}
{"id": "C74", "title": "The traction is the numerical flux the scheme balances", "statement": "The traction reported on a fault or boundary facet is exactly the numerical flux that appears in the residual of both adjacent elements, with opposite signs, so an element's discrete balance of forces closes with the reported tractions; for elasticity the balance of moments closes as well.", "quantifier": "every facet, coefficients, unknowns, boundary data", "why_tests_cant": "Continuum of states.", "anchors": ["app/localoperator/Poisson.cpp: traction_skeleton, traction_boundary", "app/localoperator/Elasticity.cpp"]}
{"id": "C75", "title": "The interior penalty operator is positive semidefinite", "statement": "On every mesh of straight triangles or tetrahedra, for every polynomial degree, with the penalty the operator computes (trace constant, areas, volumes, extreme coefficients), the assembled interior-penalty matrix satisfies x.Ax >= 0 for every vector x. The trace constant of InverseInequality is a valid and the best constant of the inverse trace inequality for polynomials on the reference simplex. On curved meshes the matrix is positive semidefinite whenever the inverse trace inequality holds with that constant.", "quantifier": "every distributed mesh, tags, vectors; positive coefficients (elasticity: positive shear modulus, first Lame parameter not negative)", "why_tests_cant": "Over all vectors and meshes.", "anchors": ["app/localoperator/Poisson.cpp: prepare_penalty", "app/localoperator/Elasticity.cpp: prepare_penalty", "src/form/InverseInequality.h: InverseInequality::trace_constant"]}
{"id": "C64", "title": "Friction right-hand side: every node gets its own rates", "statement": "For every block of the fault, the right-hand side, the initial state and the output table hold at each node the slip rate, state rate, stresses computed from the traction, the state and the coordinates of that node alone, in the documented positions and under the right column names; nothing else is written; the returned slip rate is the largest over the nodes (NaN is ignored) and the returned error the worst over the nodes.", "quantifier": "all numbers of nodes and tangential components, all blocks, all friction laws, all values including NaN", "why_tests_cant": "The layout must hold for every block size, law and stored value.", "anchors": ["app/localoperator/RateAndState.h"]}
{"id": "C76", "title": "State evolution relaxes to the common steady state", "statement": "At every positive slip rate the ageing law and the slip law have the same steady state, f0 - b log(V/V0), and drive the state variable towards it from both sides; at rest the ageing law strengthens for ever.", "quantifier": "all real parameters in the admissible range and all states", "why_tests_cant": "Continuum of parameters and states.", "anchors": ["app/localoperator/DieterichRuinaAgeing.h", "app/localoperator/DieterichRuinaSlip.h"]}
{"id": "C61", "title": "Equidistant nodes are the lattice of the simplex, vertices first", "statement": "For every degree n >= 1, dimension 1..3 and both numbering conventions, the equidistant nodes are distinct, there are binom(n+D,D) of them, they are exactly the points alpha/n with alpha a multi-index of degree at most n, and the first D+1 are the vertices of the reference simplex; on tetrahedra the nodes inside edges and then inside faces follow in the order of the VTK resp. GMSH documentation.", "quantifier": "every degree, both conventions, dimensions 1 to 3", "why_tests_cant": "Recursive construction over unbounded degree.", "anchors": ["src/basis/Equidistant.cpp"]}
{"id": "C77", "title": "node_permutation finds the permutation of nodes that a permutation of vertices induces", "statement": "node_permutation returns a value iff every image of a node under the affine map of the vertex permutation is a node up to the tolerance, and then entry i is such a node; on equidistant nodes of any degree it returns a permutation that maps node i to its exact image.", "quantifier": "every node set, vertex permutation and degree", "why_tests_cant": "All degrees and permutations.", "anchors": ["src/basis/Util.h"]}
{"id": "C79", "title": "The fault's coordinate system is orthonormal and oriented", "statement": "For an up vector that is not colinear with the facet normal, the facet basis consists of the unit normal, a dip direction pointing down and (in 3D) a horizontal strike direction; it is orthonormal and right-handed. It is refused exactly when up and normal are colinear. The basis made from simplex edges is orthonormal too.", "quantifier": "every normal, up vector, Jacobian; D = 2, 3", "why_tests_cant": "Continuum of geometries.", "anchors": ["src/geometry/Curvilinear.cpp:facetBasis", "src/geometry/Curvilinear.cpp:facetBasisFromPlexTangents"]}
{"id": "C80", "title": "The fault and the volume problem exchange slip, traction and moment consistently", "statement": "Whichever of the two elements of a fault facet comes first, the same slip prescribes the same motion and the same displacement gives the same traction; the prescribed jump has no opening and its tangential components are the slip; the traction block is the L2 projection of the traction's components (and the mass matrix is invertible); the work of traction on slip is preserved; the moment rate is the integral of shear modulus times the friction law's slip rate.", "quantifier": "every facet, element order, up and reference normal, slip, traction, material and basis", "why_tests_cant": "Continuum of states and all orderings of elements.", "anchors": ["app/localoperator/AdapterBase.cpp", "app/localoperator/ElasticityAdapter.cpp", "app/localoperator/PoissonAdapter.cpp", "app/form/AdapterOperator.h", "app/kernels/elasticity_adapter.py", "app/kernels/poisson_adapter.py"]}
{"id": "C81", "title": "The wave equation's right-hand side is minus the inverse mass times the residual", "statement": "In a distributed run the acceleration computed for the elastic wave equation is on every owned element minus a weight-adjusted inverse mass matrix times the residual A u - b of the quasi-static system with the current slip and displacement data (a body force is left out); if density times Jacobian is constant on the element, mass matrix times acceleration equals minus the residual exactly; the projection of initial conditions reproduces every function of the space on elements with constant Jacobian.", "quantifier": "every conforming distributed mesh, every boundary-condition assignment that fits, all coefficients, densities, penalties, geometry samples, quadrature rules, basis functions, data and vectors", "why_tests_cant": "Over all meshes, partitions, tags and real fields.", "anchors": ["app/localoperator/Elasticity.cpp: apply_, wave_rhs, project", "app/kernels/elasticity.py", "src/form/DGOperator.h: wave_rhs, project"]}
{"id": "C78", "title": "Reference elements: evaluation tables are a basis of the polynomials, its gradient, and the nodal basis is the Lagrange basis", "statement": "For dimension 1..3 and every degree N the modal functions evaluated by evaluateBasisAt are polynomials of degree at most N and every such polynomial has unique coefficients in them. If the nodes determine polynomials of degree N (equivalently, the Vandermonde matrix is nonsingular; equidistant nodes of every degree and distinct nodes on the line do), the nodal function i is one at node i and zero at the others, interpolation reproduces every polynomial of degree N and the functions sum to one. evaluateGradientAt returns, for every storage order, the gradient of exactly these functions (on the line: half of it, a defect).", "quantifier": "every degree, dimension 1 to 3, node set, evaluation points and storage permutation", "why_tests_cant": "Infinitely many degrees, nodes, points and polynomials.", "anchors": ["src/form/RefElement.cpp", "src/form/RefElement.h", "src/basis/Nodal.cpp: Vandermonde", "src/basis/Functions.cpp"]}
{"id": "C83", "title": "Prolongation between polynomial degrees keeps the function", "statement": "The matrix assembled by NodalInterpolation (p-multigrid) maps the nodal values of any function of the coarse space, in each of the quantities, to the values of the same function at the nodes of the fine space and does not mix quantities; ModalInterpolation maps coarse coefficients to the fine coefficients of the same function. This relies on basis functions of lower degree being numbered first.", "quantifier": "every pair of degrees, dimension 1 to 3, number of quantities, node sets and coarse function", "why_tests_cant": "Infinitely many degrees and functions.", "anchors": ["app/localoperator/NodalInterpolation.cpp", "app/localoperator/ModalInterpolation.h", "src/util/Combinatorics.h: AllIntegerSums"]}
{"id": "C57", "title": "Quadrature rules integrate polynomials of the promised degree exactly", "statement": "GaussJacobi(n,a,b) integrates polynomials of degree up to 2n-1 exactly against (1-x)^a (1+x)^b, with positive weights and points inside the interval; changing the interval keeps exactness for every function; the tensor product rule for minimum order q in dimension 1, 2, 3 is exact on the reference simplex for every polynomial of its reported order, which is at least q, and reports its number of points.", "quantifier": "every number of points, exponents, order, dimension 1 to 3 and polynomial", "why_tests_cant": "Infinitely many degrees and polynomials; tests check a few orders to a tolerance.", "anchors": ["src/quadrules/GaussJacobi.cpp", "src/quadrules/IntervalQuadratureRule.cpp", "src/quadrules/TensorProductRule.cpp"]}
{"id": "C63", "title": "The automatically chosen quadrature rule is exact enough and smallest", "statement": "simplexQuadratureRule returns, for every requested order, one of the available rules, of order at least the requested one and with no more points than any other candidate; provided the tables are exact in their own coordinates the returned rule is exact on the reference simplex (the affine transformation and weight scaling of the tables are right).", "quantifier": "every requested order, dimension 1 to 3, tables", "why_tests_cant": "Every order and table.", "anchors": ["src/quadrules/AutoRule.h", "src/quadrules/TabulatedRules.h"]}
{"id": "C82", "title": "Mass matrices of reference elements are the integrals, and their inverses are inverses", "statement": "With an exact rule of order 2N, the mass matrix of the modal element (whose off-diagonal entries are simply set to zero) and of the nodal element contain the integrals of products of basis functions over the reference simplex, for every degree; the modal basis is orthogonal; inverseMassMatrix is the two-sided inverse.", "quantifier": "every degree, dimension 1 to 3, exact rule, unisolvent node set", "why_tests_cant": "Infinitely many degrees, rules and node sets.", "anchors": ["src/form/RefElement.cpp: massMatrix, inverseMassMatrix", "src/basis/Functions.cpp"]}
{"id": "C84", "title": "The quadrature the program uses is accurate to 1e-11 for every polynomial of the requested order up to 20", "statement": "Every rule of the source's tables for triangles and tetrahedra, after the transformation to the reference simplex, integrates all polynomials of its order up to 1e-38 (1e-64) times the sum of the absolute values of the coefficients, has positive weights, and all points lie in the simplex. The rule that simplexQuadratureRule returns with these tables for a requested order up to 20 in dimension 1, 2, 3, including the Gauss-Legendre and tensor product rules as they come out of the Newton iteration with its tolerance, is exact up to 1e-11 times that sum and has positive weights and points in the simplex; above order 20 it is the tensor product rule. Rounding points and weights to doubles changes the result by no more than a stated multiple of the rounding error.", "quantifier": "every table entry; every requested order up to 20 (choice: every order), dimension 1 to 3, every polynomial of that order", "why_tests_cant": "A continuum of polynomials, and the tables have about 40000 digits that no test checks to this accuracy.", "anchors": ["src/quadrules/JaskowiecSukumar2020.cpp", "src/quadrules/WitherdenVincent2015_Tri.cpp", "src/quadrules/WitherdenVincent2015_Tet.cpp", "src/quadrules/TabulatedRules.h", "src/quadrules/AutoRule.h", "src/quadrules/GaussJacobi.cpp"]}
{"id": "C85", "title": "The lspoly solver applies the least-squares residual polynomial", "statement": "After n updates the error of KSPSolve_LSPoly is R_n(BA) applied to the initial error, where R_n is the polynomial of degree at most n with R_n(0)=1 that minimises the integral of w R^2 over [0, estbias*emax] with w(x)=(1-x)^alpha (1+x)^beta. The vector returned is the first iterate that passes the convergence test or the one after max_it updates, a non-zero reason and the residual norm of the returned vector are reported, and for alpha <= beta+1 no eigencomponent of the error with eigenvalue in that interval is amplified. The optimality fails for alpha+beta=-1.", "quantifier": "all linear operators and preconditioners, right-hand sides, initial guesses, real alpha, beta > -1, iteration counts, convergence tests", "why_tests_cant": "the recurrence runs for arbitrarily many steps with real parameters and the optimality is over all polynomials", "anchors": ["app/pc/lspoly.c:ResidualP_Init", "app/pc/lspoly.c:ResidualP_Next", "app/pc/lspoly.c:KSPSolve_LSPoly"]}
{"id": "C86", "title": "Interpolation nodes are symmetric and conform across facets", "statement": "The warp & blend interpolation nodes used for the elements (any degree up to 65536, any blending parameter) are invariant under renumbering the vertices of the simplex: permuting the barycentric tuple of a node permutes its barycentric coordinates. Vertices are nodes; the nodes on an edge of the triangle are the Gauss-Lobatto nodes of the line in the parametrisation of the edge, and the nodes on a face of the tetrahedron are the nodes of the triangle in the parametrisation of the face. Hence two elements that share a facet have their facet nodes at the same places, whatever the vertex numbering. There is one node per basis polynomial; degree 0 gives the centroid.", "quantifier": "All degrees 1..65536, all blending parameters, all permutations of the vertices, all nodes, all pairs of elements with a common facet.", "why_tests_cant": "Tests check a few degrees; the masking near edges and the order of the faces matter for every degree.", "anchors": ["src/basis/WarpAndBlend.cpp: WarpAndBlendFactory, warpAndBlendTriangle, Warpfactor", "src/basis/Nodal.cpp: LegendreGaussLobattoPoints", "src/basis/GaussLegendre.cpp: GaussLegendreFactory"]}
{"id": "C87", "title": "Randomised eigenpairs and the deflation preconditioner", "statement": "Orthonormalisation turns linearly independent columns into orthonormal ones with the same leading spans. For a symmetric matrix RandEigsMax returns, in ascending order, the k largest Ritz pairs of the space A^(power_its+1) X, and RandEigsMin (exact solves, positive definite) those of the inverse, in ascending order of the eigenvalues; they are eigenpairs if the space is invariant, in particular if it is the whole space. The eigdeflate preconditioner without smoothing is Q diag(1/e) Q^T for every distribution of the rows; with eigenpairs it removes the deflated part of the error and multiplies the rest by the Richardson factor, which is below one for the computed relaxation. The result of the pre-smoothing is lost (overwritten).", "quantifier": "All symmetric matrices, random matrices, numbers of vectors, oversampling and power iterations, distributions of rows over ranks, vectors, smoothing counts.", "why_tests_cant": "The input is random and the statement is about all matrices and spaces; a test sees single samples.", "anchors": ["app/pc/reig_aux.c: VecOrthonormalize_ModifiedGramSchmidt, MatDenseSymmetrizeSEQ, RandEigsMax, RandEigsMin, MatMultRedundant_MatDenseVecSeq", "app/pc/eigdeflate.c: PCApply_eigdeflate, PCSetUp_eigdeflate"]}
{"id": "C62", "title": "Finite element functions and error norms", "statement": "Evaluating a finite element function returns the values of the polynomials with the stored nodal values, evaluating its gradient returns the derivatives with respect to the physical coordinates, on every curved element on which the element map is not degenerate. The L2 error of a run (volume and fault version) is the root of the sum over all elements (facets) of all ranks of the quadrature of the squared distance to the reference, weighted with the volume (area) element; it does not depend on the partition, is zero exactly if the values agree at the quadrature points, and approximates the integral to 1e-11 for polynomial integrands up to degree 20. The H1 error does the same with gradients for one or D quantities (for other numbers of quantities it reads wrong entries of the reference: witness).", "quantifier": "all dimensions, degrees, element shapes, dof values, references and partitions", "why_tests_cant": "unit tests compute the error of one solution on one mesh; a wrong index, a missing Jacobian factor or a rank counted twice shows only for other numbers of quantities, curved elements or partitions", "anchors": ["src/form/Error.cpp: Error::L2, Error::H1_semi", "src/form/FiniteElementFunction.cpp: map, gradient, name", "src/geometry/Curvilinear.cpp: map, jacobian"]}
{"id": "C52", "title": "Calls into the Lua script pass the right arguments and return the right results", "statement": "A function of the scenario that the program calls through the Lua interface receives exactly the coordinates given, in order (for a method: the table itself first; for a tagged method: the tag last), and the program gets the first results of the function, in order. An error of the script and a missing or non-numeric result are reported as an exception that names the first bad result, never as a wrong number. Presence of a member and constants are read without changing the script. After any sequence of successful calls the interpreter's stack is as it was at the start, so a simulation may make any number of calls; an error leaves values behind.", "quantifier": "All scripts (any interpreter behaviour, including functions with side effects and errors), all tables and names, all numbers of arguments and results, all arguments, all stacks, all sequences of calls.", "why_tests_cant": "Stack leaks and misplaced arguments show only for particular numbers of arguments and results or after very many calls; tests use a handful of scripts.", "anchors": ["src/script/LuaLib.h:LuaLib::getFunction", "src/script/LuaLib.h:LuaLib::getMemberFunction", "src/script/LuaLib.h:LuaLib::getMemberFunctionTagged", "src/script/LuaLib.h:LuaLib::hasMember", "src/script/LuaLib.h:LuaLib::getMemberConstant"]}
{"id": "C88", "title": "Scenario functions reach the solver in their place, or their default does", "statement": "Every function and constant a user writes in the Lua scenario is used for exactly the quantity of that name: material functions get the coordinates and the region tag, functions of space and time get the coordinates and then the time, friction parameters at a point are the numbers the methods return there. A function the scenario does not define is replaced by the documented default (no warp, mu = 1, lam = 0 for earthquake scenarios and 1 for static elasticity, no prestress, no initial slip), and optional ones (density, boundary, source, perturbations, solution, initial values) are then absent. A scenario that does not exist and a missing friction constant are errors. Creating a scenario changes neither the script nor the interpreter's stack.", "quantifier": "All scripts and scenario names, all sets of defined members, dimensions, points, tags and times.", "why_tests_cant": "The number of subsets of defined members and of dimension combinations is large; a swapped pair of parameters gives plausible numbers.", "anchors": ["app/common/Scenario.h", "app/common/ElasticityScenario.h", "app/common/PoissonScenario.h", "app/tandem/SeasScenario.h", "app/tandem/SeasSolution.h", "app/tandem/FrictionConfig.h"]}
{"id": "C89", "title": "Curved meshes have no gaps, and the geometric data of elements and facets is exact", "statement": "Two elements that share a facet get element maps that agree at every point of the facet, for every transformation of the domain given by the user, every polynomial degree from 1 on, equidistant and warp & blend nodes, straight meshes and curved meshes read from a file; the coordinates computed from both sides coincide and the normals are opposite unless the mesh is folded. Without transformation the straight or curved elements of the mesh are reproduced exactly. The construction fails exactly for meshes without coordinates or with an incomplete number of nodes. The mesh size is the greatest distance of two transformed vertices; elements without tag have tag -1. The stored inverse Jacobians, normals (perpendicular, outward, with the length of the area element), unit normals, volumes and areas are those of the maps; the volume of a straight element is exact. Slip functions change sign with the normal on interior facets.", "quantifier": "all meshes, transformations, degrees, reference nodes, facets and quadrature rules", "why_tests_cant": "The agreement on a facet must hold at every point for every transformation and degree; tests check a few points of a few meshes.", "anchors": ["src/geometry/Curvilinear.cpp: Curvilinear", "src/form/DGCurvilinearCommon.cpp: prepare_volume, prepare_bndskl", "src/form/DGCurvilinearCommon.h: make_volume_functional, make_facet_functional"]}
{"id": "C90", "title": "The SEAS right-hand sides do not depend on the distribution of the mesh", "statement": "On any number of ranks the evaluation of the time derivative (fully dynamic: rhs(t,v,u,s); quasi-dynamic: rhs(t,s)) terminates whatever the order of message arrival, and every kernel call sees the values of the global fields: du is v; each own element's wave kernel gets the displacement of the element and of all its neighbours and the slip of its fault facets; each local fault facet's friction law gets its state, the displacements on both sides and its slip; boundary data belong to time t; outside an evaluation the slip callback throws. The CFL step is the smallest element step of all ranks. The fully dynamic initial condition uses, in elements of other ranks, the displacement before initialisation (a defect unless the initial displacement is zero).", "quantifier": "all meshes, dimensions, distributions over ranks, block sizes, field contents, message completion orders and prior contents of the ghost buffers", "why_tests_cant": "a test runs one mesh on one or two ranks with one message timing; stale ghost values show only at partition boundaries that cut the fault", "anchors": ["app/form/SeasFDOperator.cpp:rhs,initial_condition,cfl_time_step", "app/form/SeasQDOperator.cpp:rhs,initial_condition,solve,update_traction", "app/form/AdapterOperator.h:slip_bc,traction", "src/form/DGOperator.h:apply_,rhs,local_cfl_time_step"]}
{"id": "C53", "title": "Starting the program: command line, configuration, mesh and writers", "statement": "Everything from the first --petsc on goes to PETSc and nothing else does. A configuration is accepted exactly if the file is valid on its own (an absent ts_checkpoint section counts as empty) and each scalar given on the command line converts and validates; command line values take precedence, all other members come from the file. Every accepted configuration satisfies the documented constraints (positive resolution, CFL and t_max, existing files and output directories, known mode, type, strategy, storage and output formats, HDF5 only if built in). Every documented keyword is recognised in any casing. Relative mesh and library paths are searched in the directory of the configuration file. The simulation starts from the mesh file if one is given and readable, else from the generated mesh if a resolution is given, else not at all, and all ranks take the same decision. Every output section yields exactly one writer with its prefix and format; equal fault and domain prefixes are refused.", "quantifier": "all command lines, configuration files, file systems, keywords, paths, numbers of ranks and output sections", "why_tests_cant": "The input space (arbitrary files, paths, options and their combinations) cannot be enumerated by tests", "anchors": ["app/tandem.cpp:main", "app/common/CmdLine.h:readFromConfigurationFileAndCmdLine", "app/tandem/SeasConfig.cpp:setConfigSchema", "app/common/MeshConfig.cpp:GenMeshConfig", "src/util/SchemaHelper.h", "src/io/MeshParser.cpp:createWithValidation", "app/tandem/SEAS.cpp:add_writers"]}
{"id": "C91", "title": "Multigrid hierarchy of the linear solver", "statement": "Constructing the linear solver with the multigrid preconditioner succeeds for every strategy, coarse level and positive degree. Every level has exactly one smoother operator; the finest gets the assembled matrix (and the matrix-free operator if requested), the operator of every coarser level acts on coefficients exactly as the assembled matrix acts on the same functions, so it is symmetric positive definite if the assembled matrix is; interpolation between levels keeps the functions; every coarse matrix is kept once for destruction; the preallocation of the interpolation is exact and never touches another rank. Warm-up sets up the outer solver, every smoother and every part of a composite preconditioner, at any nesting depth, exactly once, each solver before its parts. For degree 0 the two-level strategy throws.", "quantifier": "every strategy, coarse level, degree, dimension, number of quantities, elements and ranks, assembled matrix; every tree of preconditioners", "why_tests_cant": "Unbounded degrees, meshes, matrices and nesting.", "anchors": ["app/common/PetscLinearSolver.cpp: setup_mg, warmup", "src/form/InterpolationOperator.h", "app/common/PetscInterplMatrix.cpp", "app/common/MGConfig.cpp"]}
{"id": "C49", "title": "Times in the log denote the simulation time", "statement": "For every non-negative time the printed years, days, hours, minutes and seconds add up to the time exactly (a year has 365.25 days), everything but the seconds is a whole number, every number is below one of the next larger unit, zero parts are left out and something is always printed. Different times print differently before the seconds are rounded. Negative times are not printed correctly.", "quantifier": "every time", "why_tests_cant": "All real times.", "anchors": ["app/common/PetscLoggingUtils.h: format_time"]}
{"id": "C69", "title": "A checkpoint restores the whole state of the time integrator", "statement": "Loading a checkpoint into an integrator of the same scheme and layout restores scheme, step number, times, step size, step size controller, solution and stage vectors exactly, for plain and nested vectors with any number of blocks, and leaves the configuration alone; the restarted run therefore continues like the uninterrupted one for any number of steps if options do not interfere. A checkpoint with another number of blocks or other block sizes is rejected. A scheme without own load function and a missing controller cannot be restarted; a scheme with fewer stages is not rejected; options that set initial values override the checkpoint.", "quantifier": "every state, scheme, layout and number of further steps", "why_tests_cant": "Unbounded states and histories.", "anchors": ["app/common/ts_util.c: _TSView, _TSLoad, _TSImplView_RK, _TSImplLoad_RK, ts_checkpoint_restart", "app/common/vecnest_util.c"]}
{"id": "C92", "title": "The time integrator drives the operator it was given", "statement": "For every number of state vectors the solution vector of the integrator is the same memory as the state vectors and holds the operator's initial condition after construction; the right-hand side the integrator sees is the operator's at that time and state, written to the result vectors in order and nowhere else; the monitor gets the state vectors in order; output is always registered exactly once; the step size is limited by cfl times the stability limit; only a Runge-Kutta tableau with the property counts as first-same-as-last. On one rank load_directory may be a directory or a file whose first line names one, everything else is an error; on several ranks the load branch is not collective.", "quantifier": "every operator, number of state vectors, time, store, path and number of ranks", "why_tests_cant": "Unbounded numbers of vectors and all aliasing patterns.", "anchors": ["app/common/PetscTimeSolver.h", "app/common/PetscTimeSolver.cpp", "app/tandem/SEAS.cpp: solve_seas_problem"]}
{"id": "C93", "title": "The program static follows its configuration and reports honestly", "statement": "In an accepted configuration every scalar option of static has the value of the command line, otherwise of the file, otherwise the documented default, and satisfies its constraint. All ranks take the same decision and the same collective operations in the same order. The problem is solved with the mesh of the file, or with the generated mesh if no file is named; otherwise nothing is computed and the exit code is -1. With profile n>0 the system is solved n+1 times and minimum <= average <= maximum of the last n times are reported; errors are reported exactly if the scenario has a reference; the output file is written exactly if the solver converged and a file is configured.", "quantifier": "every configuration file, command line, rank, number of ranks, scenario and outcome of the solver", "why_tests_cant": "Unbounded configurations, repetitions and ranks.", "anchors": ["app/static.cpp: main, static_problem", "app/common/CmdLine.h", "src/util/Schema.h"]}
{"id": "C94", "title": "Fault and volume output is drawn where it was computed", "statement": "The node coordinates at which the friction law and the scenario's functions are evaluated and the point coordinates of the fault output files come from the same parametrisation of each fault face (missing third coordinates are zero), the law's parameters of a node are the scenario's functions at that node, and the arrays of the file have, under the documented names and in the documented order, the values at these points of the polynomials through the node values of the face. So a quantity that is a polynomial function of the position of at most the degree of the fault is drawn with its exact value at every output point. Volume output points are the images of the element maps, derivative arrays named d<quantity>_d<coordinate> hold the physical derivatives; probe tables have the values of the probe's face at the probe's point, and the HDF5 file has the same numbers (for one function; of two functions only the first is stored).", "quantifier": "All meshes and partitions (per rank), polynomial degrees, curved elements, output points, states, tractions, laws and probe positions; exact real arithmetic.", "why_tests_cant": "Tests compare files for one mesh; the claim needs every face orientation, degree and curved element.", "anchors": ["app/localoperator/RateAndStateBase.cpp: prepare", "app/localoperator/RateAndState.h: set_params, state", "app/form/FrictionOperator.h: state", "src/io/VTUAdapter.h", "src/io/VTUWriter.cpp: addPointData, addJacobianData", "src/io/BoundaryProbeWriter.cpp", "src/io/HDF5ProbeWriter.cpp: write"]}
{"id": "C95", "title": "The friction operator treats every fault face with its own data", "statement": "The initial slip, the initial state variable and the right-hand side at node k of face f are what the friction law gives for node k of face f from that node's traction and state; nothing outside of the local faces is written, the slip is unchanged by the initialisation of the state; the reported maximum slip rate is the largest over all nodes of all local faces, NaN or not; and the program is ended exactly if the slip-rate solver reports failure at some node of some face.", "quantifier": "All numbers of faces, nodes and components, all laws, tractions, states (including NaN) and sources.", "why_tests_cant": "One face or one node cannot show that neighbours do not mix, nor the maximum over all faces in the presence of NaN.", "anchors": ["app/form/FrictionOperator.h: pre_init, init, rhs", "app/localoperator/RateAndState.h: pre_init, init, rhs"]}
{"id": "C96", "title": "Output series at every crash point and after a restart", "statement": "Whenever and in whatever interleaving of the ranks a run is interrupted, a readable .pvd file is the one found at the start or lists, in order and with their times, exactly the outputs of a beginning of the run under its prefix; every .pvtu file listed is complete, and so are all pieces except possibly those of the last output on other ranks. A run that is not interrupted ends with all outputs complete and touches no other files; it cannot deadlock. Writers with different prefixes never touch each other's files. A second run with the same prefix numbers from 0: it overwrites outputs with the same number, and outputs of the first run beyond its last number stay but are no longer listed.", "quantifier": "every number of ranks, assignment of writing ranks, list of writers, sequence of outputs, interleaving, crash point and earlier content of the directory", "why_tests_cant": "Interleavings and crash points are unbounded in number; a test sees one schedule and no crash.", "anchors": ["src/io/VTUWriter.cpp: write", "src/io/PVDWriter.cpp", "app/tandem/Writer.h: FaultWriter, DomainWriter", "app/tandem/Monitor.cpp"]}
{"id": "C97", "title": "The time step of the fully dynamic solver bounds the spectrum of the wave operator", "statement": "For every eigenvalue l of the wave operator (inverse mass times stiffness, assembled over all ranks) and every time step t between 0 and the one the program computes from its elements, l t^2 <= 1, provided the density is at least one in the units used. The constants in the table of inverse gradient inequalities are upper bounds for all polynomials of the degree. The bound is the same whatever the distribution of the mesh. The computed step depends on the unit of mass.", "quantifier": "every distributed mesh of affine elements, polynomial degree of the table (1-10 in 2D, 1-5 in 3D), quadrature exact to twice the degree, positive material, eigenpair and number of ranks", "why_tests_cant": "Eigenvalues of the operator of every mesh and material cannot be enumerated; a too large step shows only as an instability late in a run.", "anchors": ["app/localoperator/Elasticity.cpp: prepare_cfl, stiffness_tensor_bounds, inverse_density_upper_bound", "src/form/InverseInequality.h: grad_constant, trace_constant", "src/form/DGOperator.h: local_cfl_time_step", "app/form/SeasFDOperator.cpp: cfl_time_step"]}
{"id": "C98", "title": "The material of the operators is the projection of the functions of the user", "statement": "After the operators are built, the coefficient field of every element is the unique polynomial of the material degree that approximates the user's function, evaluated at the mapped points with the element's tag, best in the discrete L2 norm of the element; the stored coefficients are its values at the nodes; functions that are polynomials of this degree on the element are reproduced; the integral over the element is kept; for elasticity the density enters by the projection of its reciprocal, and is one if none is given; an element that two ranks see has the same material on both; the values used on facets and written to files are those of the same field. A positive function can nevertheless give negative coefficients.", "quantifier": "every mesh of one, two or three dimensions with curved elements, material degree, unisolvent nodes, quadrature exact to twice the degree with positive weights, material function, element and rank", "why_tests_cant": "The functions come from user scripts and the meshes are arbitrary; best approximation compares with all polynomials.", "anchors": ["app/localoperator/Poisson.cpp: prepare_volume, coefficients_volume", "app/localoperator/Elasticity.cpp: prepare_volume, coefficients_volume", "app/kernels/poisson.py: project_K_lhs, project_K_rhs", "app/kernels/elasticity.py: project_material_lhs", "src/form/DGOperator.h: constructor"]}
{"id": "C99", "title": "The constructors of the operators give every rank the data of its elements, and the whole chain gives a symmetric positive semidefinite matrix and a stable time step", "statement": "When the discontinuous Galerkin operators are constructed on all ranks, every rank ends up, for its own elements, its ghost elements and its facets, with geometry, volumes, areas, material and penalties that depend only on the element or facet and not on the rank, the numbering, the distribution or the order in which messages arrive; two distributions of the same mesh therefore lead to the same global matrix. On straight meshes with a material that is constant on each region the constructors succeed on all ranks and the assembled interior penalty matrices for Poisson's equation and for elasticity are symmetric and positive semidefinite, and the time step computed for the wave equation satisfies the stability condition for every eigenvalue. Nothing is assumed about the stored data: it is what the constructors computed.", "quantifier": "every straight (for the first part: also curved) mesh of triangles or tetrahedra, number of ranks, partition, arrival order, region-wise constant material, polynomial degree (time step: degrees with checked constants, density at least one), quadrature exact to twice the degree and unisolvent nodes", "why_tests_cant": "The statement couples all ranks, all message orders and all meshes; positive semidefiniteness is a statement about all vectors.", "anchors": ["src/form/DGOperator.h: constructor", "src/form/DGCurvilinearCommon.cpp: prepare_volume, prepare_bndskl, end_preparation", "app/localoperator/Poisson.cpp: Poisson, prepare_volume, prepare_penalty", "app/localoperator/Elasticity.cpp: Elasticity, prepare_volume, prepare_penalty, prepare_cfl", "src/geometry/Curvilinear.cpp: Curvilinear"]}
{"id": "C100", "title": "A run of tandem follows its configuration, writes what belongs to the time it names and reports global numbers", "statement": "A run starts exactly if the problem type and the output sections are accepted, and then does the same operations in the same order on all ranks: the operator of the configured mode with its solver options, boundary and initial data if the scenario has them, the step limit in fully dynamic runs, static output before the first step, the solution up to the final time, and the errors of the displacement and the fault state of the final time if there are references. Volume output of fully dynamic runs holds velocity and displacement of the time it is written for, under different names; fault output holds the fault state of that time and the traction of the last evaluation of the right-hand side, hence current data for first-same-as-last integrators. Static output consists of exactly the configured parameter files. Output functions hold the block of each requested element. The reported numbers of unknowns and the mesh size are those of the whole mesh, however it is distributed.", "quantifier": "every configuration, scenario, rank, mesh, distribution, history of right-hand sides and monitor calls, set of writers and intervals", "why_tests_cant": "Quantifies over all histories of integrator callbacks, all output schedules and all distributions of the mesh; a stale traction differs only slightly from the current one and looks plausible in any single test.", "anchors": ["app/tandem/SEAS.cpp: solve_seas_problem, operator_specifics, solveSEASProblem", "app/tandem/Monitor.cpp: MonitorFD::monitor, write_static, velocity_names", "app/tandem/Writer.h: write_static", "app/tandem/Context.h: setup_seasop", "src/form/DGOperator.h: solution, params", "src/geometry/Curvilinear.cpp: local_mesh_size_"]}
{"id": "C101", "title": "Polynomial solutions are reproduced exactly, on every mesh and distribution (patch test)", "statement": "If polynomials of at most the degree of the elements, one for each element, solve the boundary value problem (Poisson's equation or linear elasticity with material that is constant on each region: the volume force, the prescribed jumps on faults and on interior facets with prescribed values, continuous fluxes, prescribed values on the boundary, half of the slip on faults on the boundary, no flux on the natural boundary), then their coefficients solve the row of every element of the linear system that tandem assembles, on every rank. The coefficients are unique. The traction that tandem evaluates on faults and on facets with prescribed values is the exact traction of these polynomials with respect to the outer unit normal. In particular every polynomial of that degree on the whole domain is reproduced if its own values are prescribed.", "quantifier": "every straight mesh of triangles or tetrahedra, number of ranks, partition, arrival order of messages, polynomial degree, quadrature exact to twice the degree, interior penalty or BR2, boundary conditions, region-wise constant material and polynomial solution", "why_tests_cant": "A test checks one mesh, one degree and one polynomial to rounding; a wrong normal, a wrong side or a missing facet term on an unusual configuration stays invisible.", "anchors": ["app/localoperator/Poisson.cpp: assemble_volume, assemble_skeleton, assemble_boundary, rhs_volume, rhs_skeleton, rhs_boundary, traction_skeleton, traction_boundary", "app/localoperator/Elasticity.cpp: assemble_volume, assemble_skeleton, assemble_boundary, rhs_volume, rhs_skeleton, rhs_boundary, traction_skeleton, traction_boundary", "app/kernels/poisson.py", "app/kernels/elasticity.py", "src/form/DGOperator.h: assemble, rhs", "src/form/DGCurvilinearCommon.cpp: prepare_volume, prepare_bndskl"]}
{"id": "C102", "title": "The discrete problem has exactly one solution, on every mesh that is held by its boundary", "statement": "If from every element one can walk across facets to an element with a boundary facet on which the solution is prescribed (any boundary condition but the natural one), and the material is constant on each region (Poisson's equation: coefficient positive; elasticity: lambda not negative, mu positive), then the interior penalty matrix that the ranks assemble together is positive definite: the linear system has a solution for every right-hand side and two solutions agree on all elements. If polynomials of at most the degree of the elements solve the boundary value problem, their coefficients are the only solution.", "quantifier": "every straight mesh of triangles or tetrahedra, number of ranks, partition, arrival order of messages, polynomial degree, quadrature with positive weights exact to twice the degree, boundary conditions that hold the mesh, region-wise constant material, right-hand side", "why_tests_cant": "A test solves one system; a penalty that is too small by a constant, a facet that is left out or a wrong sign may leave a singular or indefinite matrix only for some meshes, degrees or partitions, and an iterative solver may then still stop with a wrong answer.", "anchors": ["app/localoperator/Poisson.cpp: assemble_volume, assemble_skeleton, assemble_boundary, prepare_penalty", "app/localoperator/Elasticity.cpp: assemble_volume, assemble_skeleton, assemble_boundary, prepare_penalty", "src/form/InverseInequality.h: trace_constant", "src/form/DGOperator.h: assemble", "app/common/PetscLinearSolver.h: solve"]}
{"id": "C103", "title": "The Green's function mode computes the tractions of the direct solve", "statement": "If the prescribed displacements at the boundary are proportional to time (the program refuses the Green's function mode unless the user declares this), then for every time and every slip the traction that the mode obtains from the precomputed operator and boundary traction equals, in every component at every fault facet, the traction that the direct mode obtains by solving the linear system for that time and slip and evaluating on the fault. The direct mode always has a result, the result is determined by the data, and tractions superpose.", "quantifier": "every straight mesh of triangles or tetrahedra that is held by its boundary, number of ranks, partition, arrival order of messages, polynomial degree, basis and geometry on the fault, boundary data proportional to time, time, slip", "why_tests_cant": "A test compares the two modes on one mesh, one slip and one number of ranks; a block offset, a sign or a contribution of the boundary that is dropped in one of the modes may cancel or vanish there.", "anchors": ["app/form/SeasQDDiscreteGreenOperator.cpp: update_traction, update_internal_state, create_discrete_greens_function, compute_boundary_traction", "app/form/SeasQDOperator.cpp: solve, update_traction", "app/form/AdapterOperator.h: slip_bc, traction", "app/localoperator/Elasticity.cpp: rhs_skeleton, rhs_boundary, traction_skeleton, traction_boundary", "app/localoperator/Poisson.cpp: rhs_skeleton, rhs_boundary, traction_skeleton, traction_boundary", "app/tandem.cpp: main"]}
{"id": "C104", "title": "The fully dynamic mode conserves the energy", "statement": "In the fully dynamic mode, for every history of the slip and of the displacement at the boundary, the rate of change of kinetic plus elastic energy (the quadratic form of the assembled matrix) along a solution of the semi-discrete equations is the power of the loads that these data give. Both energies are nonnegative. While the data do not change (locked fault), energy less the work of the loads is constant; where they are zero, the kinetic energy never exceeds the energy at the start, so no displacement or velocity can grow by itself. A solution exists from every displacement and velocity while the data do not change, and two solutions with the same data and the same start agree at all times.", "quantifier": "every straight mesh of triangles or tetrahedra, number of ranks, partition, arrival order of messages, polynomial degree, region-wise constant Lame parameters (lam >= 0, mu > 0) and positive density, data of slip and boundary over time, initial state, time", "why_tests_cant": "A run shows the energy of one problem up to the error of the time integration; a block of the matrix that is not symmetric, a mass matrix that does not fit its inverse, or a penalty that is a little too small shows up only for some states and long times.", "anchors": ["app/form/SeasFDOperator.cpp: rhs", "app/localoperator/Elasticity.cpp: wave_rhs, assemble_skeleton, assemble_volume, assemble_boundary, rhs_skeleton, rhs_boundary", "src/form/DGOperator.h: wave_rhs, assemble", "app/kernels/elasticity.py: apply_inverse_mass"]}
{"id": "C105", "title": "The profile table reports the statistics over all ranks", "statement": "The time that the profile reports for a region on a rank is the sum of the lengths of the intervals that were measured for it, however these are interleaved with those of other regions, and its operations are the sum of those given for the intervals (in 64 bits). The table has a row for each region, in the order in which they were added, and a row for the total; each row has the least, the greatest and the mean time of all ranks and a median (at most half of the ranks are below and at most half above), and the sum of the operations of all ranks; no row depends on which rank has which time. The text has one line for each row, all with the seven columns of the titles, each wider than its title. In the fully dynamic mode the operations of the elastic operator are those of one application times the number of evaluations of the right-hand side.", "quantifier": "every number of ranks, set of regions, sequence of begin and stop on each rank, clock reading and number of operations", "why_tests_cant": "A test runs with one or two ranks and few regions; a median at an odd number of ranks, nested regions, or a counter that is not reset between intervals shows only in others.", "anchors": ["src/parallel/Summary.cpp: Summary", "src/parallel/Profile.h: begin, end", "src/parallel/Profile.cpp: add, get, print", "src/util/Stopwatch.h", "src/util/TablePrinter.h", "src/util/TablePrinter.cpp", "app/form/SeasFDOperator.cpp: rhs, profile"]}
{"id": "C106", "title": "The boundary condition checker shows every facet with a boundary condition", "statement": "For every mesh and number of ranks check-bc writes on each rank one cell for every facet of the elements of that rank that has a boundary condition, no facet twice and no other; the points of the cell are those of the facet (it is computed from an element of the rank and the number of the facet in that element), and its cell data is the boundary condition of this facet. Together the pieces show every facet with a boundary condition: once, or twice if its two elements are on different ranks.", "quantifier": "every conforming mesh of triangles or tetrahedra, number of ranks, distribution of the elements, boundary conditions, order of messages", "why_tests_cant": "A test looks at one mesh on one rank; cells that are lost or get the condition of another facet at a partition boundary depend on the distribution.", "anchors": ["app/check-bc.cpp: check_bc, find_facets, write_bcs", "src/io/VTUAdapter.h: CurvilinearBoundaryVTUAdapter", "src/mesh/GlobalSimplexMesh.h: getLocalMesh, getFaces", "src/mesh/LocalSimplexMesh.h: upward, downward"]}
