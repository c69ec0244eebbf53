# DESIGN

Formal model in Lean 4 (with selected Mathlib modules) of TEAR-ERC/tandem, pinned commit in /repo.

## Layout

* `lean/Verif/Model/*.lean`  - executable model of the code; every definition cites file and lines in /repo.
* `lean/Verif/Spec/*.lean`   - small independent specifications (what the English property says).
* `lean/Verif/Lemmas/*.lean` - helper lemmas, not part of the claims.
* `lean/Verif/Props/*.lean`  - the property theorems, with non-vacuity examples beside them.

## Trusted base

* Lean's kernel (4.33.0) and the standard axioms `propext`, `Classical.choice`, `Quot.sound`. No own axioms, no native evaluation.
* Faithfulness of the model: read by hand from the source, cited line by line; the C++ is not executed.
* Machine integers are modelled as `Nat`/`Int` unless the property is about wrap-around (stated per definition); floating point is modelled by exact arithmetic in an ordered field or the reals, so rounding is outside every claim.
* Library semantics (MPI collectives, POSIX rename/write, std:: algorithms, HDF5, PETSc) are modelled from their documentation and listed per property.
* Undefined behaviour, exceptions and non-termination are distinct outcomes of the model.

## Per-property plan

* **C01 Multi-index flatten and unflatten are mutually inverse** - Model flatten/unflatten as folds over the component list; two round-trip theorems and the range bound by induction on the shape.
* **C02 Iterating a multi-index product visits every multi-index exactly once** - Model operator++ and the begin/end loop with fuel; prove the visited list is the list of unflattenings of 0..prod-1. Zero inner extent: negation with witness.
* **C03 apply_permutation is the gather v'[i] = v[p[i]]** - Model the while loop over (array, indices) with a fuel-free well-founded measure (number of unfixed indices); invariant over partially applied cycles; result = gather.
* **C04 find_blocks is a lossless run-length encoding with maximal runs** - List recursion; prove decode (encode l) = l, lengths >= 1, neighbours not mergeable.
* **C05 Choose<k> enumerates the k-subsets exactly once in lexicographic order, binom(n,k) of them** - Model Choose::next on lists; prove the trace equals the lexicographic list of subsets; binom = Nat.choose.
* **C06 AllIntegerSums enumerates exactly the non-negative tuples of bounded (or fixed) total** - Model marker odometer; prove visited list = all tuples, no duplicates.
* **C07 Permutation numbers identify permutations** - Lehmer code as List; factorial number system; injectivity by reconstruction; bound < N!.
* **C08 rangeProduct and factorial** - UInt64/BitVec arithmetic loop with fuel; closed form mod 2^64; non-termination theorem for to = 2^64-1.
* **C09 LinearAllocator hands out aligned, disjoint, in-bounds blocks and the announced sizes suffice** - Byte-address model of allocate (std::align semantics of the standard); history induction.
* **C10 The incremental token hash equals the hash of the whole keyword, and keyword hashes do not collide** - BitVec 64 fold; keyword table by kernel decision.
* **C11 zeroIn keeps a bracket, terminates and meets its documented tolerance** - Loop over an arbitrary linear ordered field (exact arithmetic, eps a parameter); bracket invariant; every pass shrinks the bracket by a fixed amount: by the tolerance away from the origin, and by a fixed fraction near the origin when F stays away from zero there (the interpolation formulas give a lower bound of the step).
* **C12 Schema: defaults, required values and validators** - Model translate over an association-list table; independence of fields; error cases explicit.
* **C13 Tensors: strides, subtensors and reshapes alias the right elements** - Stride computation and offset maps as list functions; injectivity/compactness; view laws.
* **C14 Local/ghost composite and sparse block vectors address every block exactly once** - Index arithmetic; binary/hash lookup modelled as a map from index list.
* **C15 distribute splits N objects into contiguous, complete, balanced parts** - Arithmetic; sums of a list.
* **C16 SortedDistributionToRank finds the owning rank** - Two while loops on an offset list; loop invariants; div-by-zero guard explicit.
* **C17 All-to-all exchange is lossless, and a reply exchange returns answers to the askers** - All-ranks model: matrix of messages; MPI_Alltoallv semantics is an assumed primitive written from the MPI standard.
* **C18 Scatter delivers the owner's value to every ghost** - All-ranks model of plans built from LocalFaces; messages matched per (source,dest) pair.
* **C19 CPU masks: the node mask is the union of the worker masks** - BitVec/Nat sets of CPUs; text form via run list.
* **C20 Simplices are equal iff they have the same vertex set; downward() lists every face once** - Sorted vertex arrays; equality iff same vertex set; faces via Choose.
* **C21 Repartitioning keeps every element and its attached data** - All-ranks model of doPartition's enumerate/sort/send loop; multiset preservation.
* **C22 Global face numbering is consistent across ranks** - All-ranks model of the hash-rank rendezvous; uniqueness and agreement theorems.
* **C23 Ghost overlap contains exactly the needed neighbours** - All-ranks model of ghost computation from CSR adjacency.
* **C24 Permuting local faces keeps faces, ids, owners and data together** - Structure of parallel arrays; permute model; negation if an array is forgotten.
* **C25 Upward and downward incidence are inverse relations** - Lists of downward faces; upward built by scattering; iff theorem.
* **C26 Generated meshes do not depend on the number of ranks** - Distribution of flat index range + unflatten; concatenation theorem.
* **C27 Generated meshes are conforming** - Local check of one cell and its neighbours (parity) lifted to all cells by injectivity of the vertex numbering; facet counts 1 on the sides and 2 inside; coverage and disjoint interiors over an ordered field.
* **C28 Generated meshes have the requested resolution** - `initDim` with an arbitrary round-to-nearest function; bound 1.5 h proved, the documented bound h refuted.
* **C29 Region lookup finds the containing interval** - The linear search of `findRegion`; interpolation, corner points and monotonicity of the coordinates.
* **C30 Boundary conditions reach the right facets** - boundary-mesh lookup of facets: list model.
* **C31 BoundaryMap numbers boundary faces consecutively, local first, and inverts** - List model of the constructor loops over a rank's view of the mesh; the views are shown to be what `getLocalMesh(1)` yields (composition with C22, C23, C25); scatter by reduction to C18.
* **C32 Matrix preallocation equals the assembled sparsity** - Model DGOperatorTopo neighbour counting, preallocation and assembly loops as lists of (row, column) pairs; two different simplices share at most one facet, hence the counters count distinct columns; lifted to scalar rows.
* **C33 DG operator application never reads ghost values before they have arrived** - `apply_` as the list of argument tuples handed to the local operator; the ghost vector's content before `wait_scatter` is an arbitrary function, the result is shown not to depend on it; neighbour table independent of the order of facets (threads).
* **C34 The mesh lexer makes progress and terminates on every input** - Lexer state machine over a byte list; non-termination shown as a fixed point; positive round trip.
* **C35 The mesh parser delivers exactly the nodes and elements of the file** - Parser over token lists.
* **C36 Mesh builder: elements, boundary tags and node permutations go to the right simplices** - Builder over element lists.
* **C37 HDF5 mesh reader: a facet tag is found for a facet from either side** - Lookup over tag arrays.
* **C38 Time-series writers: one header, one row per record, well-formed separators, restart appends** - File as character list with a put position; history induction.
* **C39 In-place widening of 2D coordinates to 3D loses nothing** - Array update loop running backwards; index algebra.
* **C40 VTU appended-data offsets point at the data they describe** - Fold over arrays with running offset against the concatenated byte string.
* **C41 Each probe is written by exactly one rank** - All-ranks reduce (MINLOC semantics assumed).
* **C42 HDF5 hyperslabs partition the dataset** - Prefix sums; dataset as function of (time,row).
* **C43 Adaptive output: never too dense, never too sparse, steps numbered consecutively** - State machine; induction over histories.
* **C44 Green's function checkpoints survive crashes** - Filesystem state machine with crash at every step.
* **C45 Time-stepper checkpoints survive crashes** - Filesystem state machine with crash at every step.
* **C46 Multigrid level degrees** - Arithmetic/list functions.
* **C47 Rate-and-state friction: the slip-rate solve is well posed and consistent** - Real analysis in Mathlib (exact arithmetic).
* **C48 Monitor output always sees the current state** - State machine with a ghost 'computed-at' tag.
* **C50 Generated boundary faces carry the condition of their plane and region** - `extractBoundaryMesh` face by face; the maximum over the vertices is the region of the upper grid line.
* **C51 Block offsets partition the global index range** - Prefix sums over ranks.
* **C52 Calls into the Lua script pass the right arguments and return the right results** - Model/Lua: interpreter as a parameter, Lua stack as list; every LuaLib call as a function of state; push/call/read/pop sequence proved to pass the arguments in order and to restore the stack on success; the leak on errors stated exactly.
* **C53 Starting the program: command line, configuration, mesh and writers** - Model/Main: argv splitting, option table, config/schema (C12), path functions on character lists, keyword parsers; theorems about whole start-up as function of (argv, file).
* **C54 Singularity-free Jacobi polynomials are the homogenised Jacobi polynomials** - Recurrence over a field; induction on n.
* **C55 Dubiner gradients are the derivatives of the Dubiner polynomials** - Polynomial identities in exact arithmetic.
* **C56 Node count and degree determine each other** - Binomial coefficient monotonicity.
* **C57 Quadrature rules integrate polynomials of the promised degree exactly** - Model/Quadrature: the Newton loop, weights, collapsed tensor products, over the reals. Gauss formula by orthogonality for all n, a, b; Newton points certified to degree 11; tables certified by kernel evaluation of rational moment enclosures.
* **C58 Element maps are invertible, facet parametrisations agree and facet normals are right** - Linear algebra over a field, by dimension.
* **C59 The closest point of a simplex is found exactly** - Model/SimplexDistance over an ordered field; optimality by projection and case analysis on the recursion over facets.
* **C60 Point location reports true positions** - Newton loop with arbitrary map; postcondition.
* **C61 Equidistant nodes are the lattice of the simplex, vertices first** - Model/Equidistant; lattice enumeration via C06; reordering vertices/edges/faces/interior is a permutation.
* **C62 Finite element functions and error norms** - Model/Functions, Model/Error; quadrature sum identities; wrong index of the H1 seminorm refuted by a witness.
* **C63 The automatically chosen quadrature rule is exact enough and smallest** - Search of the table lists; minimality among the listed rules.
* **C64 Friction right-hand side: every node gets its own rates** - Model/RateAndState: blocks as memories over an arbitrary number type, the law as a parameter; per-node locality of the loops, then entry-wise description.
* **C65 Fault vertices in the HDF5 file are the corners of each fault facet** - Gather with stride; theorem on index map, plus the degree-0 counterexample.
* **C66 The parallel VTU file lists exactly the files that were written** - String model of the name construction; injectivity of decimal numerals.
* **C67 Probe names in the HDF5 file** - Padded fixed-width names; partial (names of equal local and global maximum), counterexample for the rest.
* **C68 Time-step statistics** - fold over the time history; min/max characterised by membership and bounds.
* **C70 Matrix-free operator equals the assembled matrix** - `Model/DGAssembly` (DGOperator::assemble/apply/rhs loops) and `Model/Poisson` (einsum kernels over finite sums of reals); block row = facet terms, generic loop lemma, then kernel algebra.
* **C71 The assembled operator is symmetric** - global entry as sum over facets, flip lemma for each facet seen from both sides.
* **C72 The assembled operator does not depend on the distribution** - the global entry is expressed by mesh-only data.
* **C73 Rigid block motion with matching slip is a discrete solution** - row of A u minus b is a sum of facet residuals, each vanishes.
* **C74 The traction is the numerical flux the scheme balances** - residual identity per facet.
* **C75 The interior penalty operator is positive semidefinite** - coercivity estimate; the inverse trace inequality is proved for polynomials on the simplex (integration along rays to the opposite vertex, one-dimensional extremal Jacobi polynomial), shown sharp, and scaled to straight elements; on curved elements it is a hypothesis.
* **C76 State evolution relaxes to the common steady state** - Model/DieterichRuina: sign of the state rate around the steady state.
* **C77 node_permutation finds the permutation of nodes that a permutation of vertices induces** - Model/NodePermutation; double loop over nodes; existence by symmetry of the node set (C86), uniqueness by injectivity.
* **C78 Reference elements: evaluation tables are a basis of the polynomials, its gradient, and the nodal basis is the Lagrange basis** - Model/RefElement; Dubiner basis orthogonality, Vandermonde invertibility, Lagrange property.
* **C79 The fault's coordinate system is orthonormal and oriented** - Model/FacetData; Gram matrix identities; sign flips.
* **C80 The fault and the volume problem exchange slip, traction and moment consistently** - Model/Adapter; slip/traction/moment kernels as finite sums; projection identities.
* **C81 The wave equation's right-hand side is minus the inverse mass times the residual** - Model/Poisson and Model/Elasticity wave kernels against the residual of C70.
* **C82 Mass matrices of reference elements are the integrals, and their inverses are inverses** - Gram matrices as integrals over the simplex; inverse by orthogonality.
* **C83 Prolongation between polynomial degrees keeps the function** - Model/RefElement prolongation; equality of polynomials.
* **C84 The quadrature the program uses is accurate to 1e-11 for every polynomial of the requested order up to 20** - Rational enclosures of all tabulated rules (kernel evaluation), perturbation lemma for Newton points, product rules.
* **C85 The lspoly solver applies the least-squares residual polynomial** - Model/LSPoly; three-term recurrence, kernel polynomial identity, minimality of the weighted norm.
* **C86 Interpolation nodes are symmetric and conform across facets** - Model/WarpAndBlend, Model/Equidistant; invariance of the warp under permutations of barycentric coordinates; nodes of a facet depend on the facet only.
* **C87 Randomised eigenpairs and the deflation preconditioner** - Model/EigDeflate; Gram-Schmidt, Rayleigh-Ritz and projection algebra in finite-dimensional real spaces.
* **C88 Scenario functions reach the solver in their place, or their default does** - Model/Scenario on top of C52; every optional member separately.
* **C89 Curved meshes have no gaps, and the geometric data of elements and facets is exact** - Model/CurvilinearBuild; interpolation on a shared facet depends on facet nodes only; Jacobians, normals, areas by derivative and determinant algebra.
* **C90 The SEAS right-hand sides do not depend on the distribution of the mesh** - Model/SeasOp on top of Model/ScatterPlan, DGTopo, LocalMesh; all ranks at once; result expressed by the global vector.
* **C91 Multigrid hierarchy of the linear solver** - `setup_mg` as a loop over flat global matrices; induction over the levels with the invariant that the level matrix is the assembled matrix on the functions of the level (Galerkin); modal and nodal interpolation from C83; warm-up as recursion over a tree of preconditioners, mutual structural induction.
* **C49 Times in the log denote the simulation time** - `format_time` over the rationals; floor arithmetic.
* **C69 A checkpoint restores the whole state of the time integrator** - view/load as writer and parser of tagged values; round trip by computation on lists, layout rejection by inversion of the parser, resume by induction over steps.
* **C92 The time integrator drives the operator it was given** - vectors in a store with handles (aliasing explicit); the argument loop as array assignments; the load branch as a list of collective calls per rank.
* **C93 The program static** - the schema of static.cpp over the model of C53, `static_problem` as a list of collective calls and printed lines per rank, `main` as a function of configuration and rank; documented options as a separate table (Spec/Options), also used for tandem (`C53_options`, `C53_section_options`).
* **C94 Fault and volume output is drawn where it was computed** - RateAndStateBase::prepare, set_params, FrictionOperator::state/params, VTU adapters, the piece of VTUWriter, probe rows over the models of C39, C41, C62, C64; the chart of a face as the element map of C62 restricted to the facet; nodal evaluation by C62_map/C62_gradient.
* **C95 The friction operator treats every fault face with its own data** - loops of FrictionOperator over flat memory; induction over faces with an untouched-blocks invariant, C64 for one face; the maximum with the comparison rules of double.
* **C96 Output series at every crash point and after a restart** - ranks as programs of file actions with one collective call per output, all interleavings; invariant: what each rank has done is a prefix of its program and every file has exactly one writing rank; names are injective.
* **C97 The time step of the fully dynamic solver bounds the spectrum of the wave operator** - `Model/Cfl` (prepare_cfl, table of gradient constants, minimum over elements and ranks); the quadratic form of C75 from above, inverse trace and gradient inequalities, weight-adjusted mass matrix. The inverse gradient inequality is proved from positive semidefinite certificates in exact integer arithmetic, evaluated by the kernel (`Lemmas/PsdCheck`, `GradIneq`, `GradCert*`); polygon inequality for the rows of the inverse Jacobian.
* **C98 The material of the operators is the projection of the functions of the user** - `Model/Material` (matrices of the projection, solve, loop over elements, output) on top of `CurvilinearBuild`; normal equations, injectivity of the table of basis functions from the exactness of the quadrature (C78, C82).
* **C99 The constructors of the operators give every rank the data of its elements; the whole chain gives a symmetric positive semidefinite matrix and a stable time step** - `Model/Construct` (constructors of `DGOperator`, `Poisson`, `Elasticity`) composed from the other models; data of an element alone as reference (`Spec/Construct`); then the hypotheses of C71, C72, C75 and C97 are discharged from the mesh up: Jacobians of straight elements, tables of the reference elements, projected material.
* **C100 A run of tandem follows its configuration, writes what belongs to the time it names and reports global numbers** - `Model/SeasRun` (solve_seas_problem with the three operator classes, MonitorFD, static output, DGOperator::solution and params, numbers of unknowns, mesh size); records of a history of callbacks by induction over the history; counts by a bijection between the local lists of all ranks and the mesh, with C31 for fault facets.
* **C101 Polynomial solutions are reproduced exactly, on every mesh and distribution (patch test)** - no new model: `Construct` with the local operators and the assembly; reference: derivatives of multivariate polynomials (`Spec/PatchTest`). Tabulated basis functions are expanded in polynomials, the divergence theorem on simplices (`Lemmas/SimplexDivergence`, by reduction to monomials on the reference simplex) turns volume terms into facet terms, C73 gives the residual of the row.
* **C102 The discrete problem has exactly one solution, on every mesh that is held by its boundary** - no new model: `Construct` with the local operators and the assembly; reference: walks across facets (`Spec/Definite`). The bound of C75 is an equality only if the trace inequality is one on every facet (`Lemmas/Definite`, `Lemmas/PoissonDefinite`); on straight elements this forces gradients to vanish (`Lemmas/DefiniteStraight`); for elasticity it forces the stress to vanish, displacements without strain are rigid motions, and one that vanishes on a facet is zero (`Lemmas/ElasticityDefinite`, `Lemmas/Rigid`); solvability from uniqueness in finite dimension (`Lemmas/SystemSolve`).
* **C103 The Green's function mode computes the tractions of the direct solve** - model: `DirectTraction` (update_traction of both operators, boundary data of a solve) on top of `Elasticity`, `Poisson`, `Adapter`, `GreenOp` and `Construct`; reference: `Spec/DirectTraction` (solve on all ranks, evaluate on the fault), `Spec/GreenOp`. Right-hand side and traction are linear in data and displacement (`Lemmas/Superposition`), the system has one solution (C102), so the map from slip and boundary data to traction is linear and reads the slip on the fault only; the product with the operator of C44 is then the response (`Props/GreenTraction`). Assumed: exact linear solver, interior penalty method, region-wise constant material; every facet of the fault is numbered once, which `C103_fault_maps` proves for the maps of C31; the ghost exchange (C18) is modelled as reading the value of the facet or element. Not claimed: other liftings, curved elements, rounding, `boundary_linear` declared for boundary data that are not proportional to time.
* **C104 The fully dynamic mode conserves the energy** - model: the equations of `C81_wave_rhs` (`Elasticity`, `DGAssembly`) as an ordinary differential equation in time; reference: `Spec/WaveEnergy` (kinetic energy by quadrature, elastic energy as the quadratic form of the matrix, power of the loads). The product with a row of the matrix is a sum over its entries (`Lemmas/BilinearForm`), so the form is symmetric by C71; the weight-adjusted inverse is the inverse of the mass matrix with density (C81), so the derivative of the energies is the power; nonnegative by C75; existence by the matrix exponential, uniqueness by the energy of the difference; from the mesh by C99. Assumed: interior penalty method, straight elements, region-wise constant material. Not claimed: time stepping (C97), feedback of the friction law, rounding.
* **C105 The profile table reports the statistics over all ranks** - model: `Profile` (Stopwatch.h, Profile.h/cpp, Summary.cpp: sorted values, index arithmetic of the median as written, 64-bit sums); reference: `Spec/Profile` (least, greatest, mean, median by counting; intervals of a region). By counting in a sorted list for the median, permutation invariance of sorting for the order of ranks, induction over the calls with the regions independent of each other for the times, and the layout of the gathered arrays for the table. Lines and columns of the text: `TablePrinter`, by induction over the items with the column counter. Not claimed: rounding, number formats, the clock.
* **C106 The boundary condition checker shows every facet with a boundary condition** - model: `CheckBc` on top of the models of `getLocalMesh` without overlap (`Ghosts`, `Faces`, `LocalMesh`); reference: in the statement (facets of the elements of a rank, tag of a facet, facet opposite to a corner). From the face tables of C22, the incidences of C25 and the numbering of facets of C20. Composed with C30 for the tags as they were read. Not claimed: positions and file format (other properties).

<!-- coverage -->
## Which code is modelled

Generated by `tools/coverage.py` from the citations in `lean/Verif/Model`; the comment of each definition gives the lines. Files with a model (in whole or in part):

* `app/check-bc.cpp`: CheckBc
* `app/common/CmdLine.h`: Main
* `app/common/ElasticityScenario.h`: Scenario
* `app/common/MGConfig.cpp`: MGConfig
* `app/common/MGConfig.h`: MGConfig, Main
* `app/common/MeshConfig.cpp`: Main
* `app/common/MeshConfig.h`: Main
* `app/common/PetscDGMatrix.cpp`: DGTopo
* `app/common/PetscDGMatrix.h`: LinearSolver
* `app/common/PetscInterplMatrix.cpp`: LinearSolver
* `app/common/PetscInterplMatrix.h`: LinearSolver
* `app/common/PetscLinearSolver.cpp`: LinearSolver
* `app/common/PetscLoggingUtils.h`: LogTime
* `app/common/PetscMatrix.h`: DGTopo
* `app/common/PetscTimeSolver.cpp`: TimeSolver
* `app/common/PetscTimeSolver.h`: Monitor, SeasRun, TSCheckpoint, TSSerial, TimeSolver
* `app/common/PetscVector.cpp`: GreenOp
* `app/common/PetscVector.h`: SeasOp
* `app/common/PoissonScenario.h`: Scenario
* `app/common/Scenario.h`: Scenario
* `app/common/Type.h`: Main
* `app/common/ts_util.c`: TSCheckpoint, TSSerial
* `app/common/vecnest_util.c`: TSSerial
* `app/form/AbstractFrictionOperator.h`: SeasRun
* `app/form/AdapterOperator.h`: Adapter, DirectTraction, SeasOp
* `app/form/FacetFunctionalFactory.h`: Scenario
* `app/form/FrictionOperator.h`: FaultOutput, Monitor, SeasOp, SeasRun
* `app/form/SeasFDOperator.cpp`: Cfl, Profile, SeasOp, SeasRun
* `app/form/SeasFDOperator.h`: Profile, SeasOp, SeasRun
* `app/form/SeasQDDiscreteGreenOperator.cpp`: DirectTraction, GreenOp, Monitor
* `app/form/SeasQDDiscreteGreenOperator.h`: GreenOp, Monitor
* `app/form/SeasQDOperator.cpp`: DirectTraction, Monitor, SeasOp
* `app/form/SeasQDOperator.h`: Monitor, SeasOp, SeasRun
* `app/kernels/elasticity.py`: Elasticity, Material
* `app/kernels/elasticity_adapter.py`: Adapter
* `app/kernels/poisson.py`: Material, Poisson
* `app/kernels/poisson_adapter.py`: Adapter
* `app/localoperator/AdapterBase.cpp`: Adapter
* `app/localoperator/AdapterBase.h`: Adapter, DirectTraction
* `app/localoperator/DieterichRuinaAgeing.h`: DieterichRuina
* `app/localoperator/DieterichRuinaBase.h`: DieterichRuina, RateAndState, Scenario
* `app/localoperator/DieterichRuinaSlip.h`: DieterichRuina
* `app/localoperator/Elasticity.cpp`: Adapter, Cfl, Construct, DGAssembly, DirectTraction, Elasticity, Material, SeasOp
* `app/localoperator/Elasticity.h`: Elasticity, Scenario, SeasRun
* `app/localoperator/ElasticityAdapter.cpp`: Adapter
* `app/localoperator/ModalInterpolation.h`: RefElement
* `app/localoperator/NodalInterpolation.cpp`: RefElement
* `app/localoperator/Poisson.cpp`: Adapter, Construct, DGAssembly, DirectTraction, Material, Poisson, SeasOp
* `app/localoperator/Poisson.h`: Poisson, SeasRun
* `app/localoperator/PoissonAdapter.cpp`: Adapter
* `app/localoperator/RateAndState.h`: FaultOutput, RateAndState, Scenario
* `app/localoperator/RateAndStateBase.cpp`: FaultOutput
* `app/localoperator/RateAndStateBase.h`: FaultOutput, Scenario
* `app/pc/eigdeflate.c`: EigDeflate
* `app/pc/lspoly.c`: LSPoly
* `app/pc/reig_aux.c`: EigDeflate
* `app/static.cpp`: Main, Static
* `app/tandem.cpp`: Main
* `app/tandem/AdaptiveOutputStrategy.h`: Monitor
* `app/tandem/Context.h`: SeasRun
* `app/tandem/FrictionConfig.h`: Scenario
* `app/tandem/Monitor.cpp`: Monitor, OutputSeries, SeasRun
* `app/tandem/Monitor.h`: Monitor, SeasRun
* `app/tandem/SEAS.cpp`: Main, Monitor, OutputSeries, SeasRun, TimeSolver
* `app/tandem/SeasConfig.cpp`: Main
* `app/tandem/SeasConfig.h`: Main
* `app/tandem/SeasScenario.h`: Scenario
* `app/tandem/SeasSolution.h`: Scenario
* `app/tandem/Writer.h`: FaultOutput, HDF5Writer, Monitor, OutputSeries, SeasRun
* `src/basis/Equidistant.cpp`: Equidistant
* `src/basis/Functions.cpp`: Functions
* `src/basis/Functions.h`: Functions
* `src/basis/GaussLegendre.cpp`: WarpAndBlend
* `src/basis/Nodal.cpp`: RefElement, WarpAndBlend
* `src/basis/NumberingConvention.h`: Equidistant
* `src/basis/Util.h`: Functions, MeshBuilder, NodePermutation
* `src/basis/WarpAndBlend.cpp`: WarpAndBlend
* `src/basis/WarpAndBlend.h`: WarpAndBlend
* `src/form/AbstractDGOperator.h`: SeasRun
* `src/form/BC.h`: DGAssembly, Main, MeshBuilder, SeasOp
* `src/form/BoundaryMap.cpp`: DGTopo
* `src/form/BoundaryMap.h`: DGTopo
* `src/form/DGCurvilinearCommon.cpp`: Construct, CurvilinearBuild, Elasticity, Poisson
* `src/form/DGCurvilinearCommon.h`: Construct, CurvilinearBuild, Elasticity, Main, Poisson
* `src/form/DGOperator.h`: Cfl, Construct, DGAssembly, DGTopo, Elasticity, Material, Poisson, SeasOp, SeasRun
* `src/form/DGOperatorTopo.cpp`: DGTopo
* `src/form/Error.cpp`: Error
* `src/form/Error.h`: Error
* `src/form/FacetInfo.h`: CurvilinearBuild, DGAssembly, DGTopo
* `src/form/FiniteElementFunction.cpp`: Error
* `src/form/FiniteElementFunction.h`: Error
* `src/form/InterpolationOperator.h`: LinearSolver
* `src/form/InverseInequality.h`: Cfl, Poisson
* `src/form/RefElement.cpp`: RefElement
* `src/form/RefElement.h`: RefElement
* `src/geometry/Affine.h`: Curvilinear
* `src/geometry/Curvilinear.cpp`: Curvilinear, CurvilinearBuild, Error, FaultOutput, PointLocator, Poisson, SeasRun
* `src/geometry/Curvilinear.h`: CurvilinearBuild, Error
* `src/geometry/PointLocator.cpp`: PointLocator
* `src/geometry/PointLocator.h`: PointLocator
* `src/geometry/SimplexDistance.h`: SimplexDistance
* `src/geometry/Vector.h`: Curvilinear, DieterichRuina, NodePermutation, Poisson, RateAndState, WarpAndBlend
* `src/io/BoundaryProbeWriter.cpp`: FaultOutput, Probes, Table
* `src/io/BoundaryProbeWriter.h`: FaultOutput
* `src/io/CSVWriter.h`: Table
* `src/io/GMSHLexer.cpp`: GMSHLexer, Hash
* `src/io/GMSHLexer.h`: GMSHLexer
* `src/io/GMSHParser.cpp`: GMSHParser, MeshBuilder
* `src/io/GMSHParser.h`: GMSHLexer, GMSHParser
* `src/io/GlobalSimplexMeshBuilder.cpp`: MeshBuilder
* `src/io/GlobalSimplexMeshBuilder.h`: MeshBuilder
* `src/io/HDF5Adapter.h`: HDF5Writer
* `src/io/HDF5MeshParser.cpp`: HDF5MeshParser
* `src/io/HDF5MeshParser.h`: HDF5MeshParser
* `src/io/HDF5ProbeWriter.cpp`: FaultOutput, HDF5Writer
* `src/io/HDF5ProbeWriter.h`: FaultOutput
* `src/io/HDF5Writer.cpp`: HDF5Writer
* `src/io/MeshParser.cpp`: Main
* `src/io/MeshParser.h`: GMSHParser
* `src/io/PVDWriter.cpp`: OutputSeries
* `src/io/ProbeWriter.cpp`: FaultOutput, Probes, Table
* `src/io/ProbeWriter.h`: Table
* `src/io/ProbeWriterUtil.h`: Probes
* `src/io/ScalarWriter.cpp`: Table
* `src/io/TableWriter.h`: Table
* `src/io/TecplotWriter.h`: Table
* `src/io/VTUAdapter.h`: CheckBc, FaultOutput
* `src/io/VTUWriter.cpp`: FaultOutput, OutputSeries, VTU
* `src/io/VTUWriter.h`: OutputSeries, VTU
* `src/mesh/GenMesh.cpp`: GenMesh, GenMeshBoundary
* `src/mesh/GenMesh.h`: GenMesh
* `src/mesh/GlobalSimplexMesh.cpp`: FacetData, Ghosts, Partition
* `src/mesh/GlobalSimplexMesh.h`: CheckBc, DGTopo, Faces, FacetData, Ghosts
* `src/mesh/LocalFaces.h`: DGTopo, LocalFaces
* `src/mesh/LocalSimplexMesh.h`: DGTopo, LocalMesh
* `src/mesh/MeshData.h`: CurvilinearBuild, FacetData, LocalFaces, Partition
* `src/mesh/Simplex.h`: Combinatorics, Equidistant, Ghosts, Simplex
* `src/parallel/Affinity.cpp`: Affinity
* `src/parallel/Affinity.h`: Affinity
* `src/parallel/CommPattern.cpp`: CommPattern
* `src/parallel/CommPattern.h`: CommPattern, Faces
* `src/parallel/Distribute.h`: Distribute
* `src/parallel/LocalGhostCompositeView.h`: ScatterPlan, SeasOp
* `src/parallel/Profile.cpp`: Profile, TablePrinter
* `src/parallel/Profile.h`: Profile
* `src/parallel/Scatter.h`: ScatterPlan, SeasOp
* `src/parallel/ScatterPlan.cpp`: ScatterPlan
* `src/parallel/ScatterPlan.h`: DGTopo, ScatterPlan
* `src/parallel/SimpleScatter.h`: ScatterPlan
* `src/parallel/SortedDistribution.cpp`: Distribute
* `src/parallel/SortedDistribution.h`: Distribute
* `src/parallel/SparseBlockVector.h`: ScatterPlan
* `src/parallel/Summary.cpp`: Profile
* `src/parallel/Summary.h`: Profile
* `src/quadrules/AutoRule.h`: QuadRules, Quadrature
* `src/quadrules/GaussJacobi.cpp`: Quadrature
* `src/quadrules/GaussJacobi.h`: Quadrature
* `src/quadrules/IntervalQuadratureRule.cpp`: Quadrature
* `src/quadrules/IntervalQuadratureRule.h`: Quadrature
* `src/quadrules/JaskowiecSukumar2020.cpp`: QuadRules, Tables
* `src/quadrules/SimplexQuadratureRule.h`: Quadrature, RefElement
* `src/quadrules/TabulatedRules.h`: QuadRules, QuadTable, Quadrature
* `src/quadrules/TensorProductRule.cpp`: Quadrature
* `src/quadrules/TensorProductRule.h`: Quadrature
* `src/quadrules/WitherdenVincent2015_Tet.cpp`: QuadRules, Tables
* `src/quadrules/WitherdenVincent2015_Tri.cpp`: QuadRules, Tables
* `src/script/LuaLib.h`: Lua, Scenario
* `src/tensor/Reshape.h`: RateAndState, Tensor
* `src/tensor/Tensor.h`: RefElement, Tensor
* `src/tensor/TensorBase.h`: Tensor
* `src/util/Algorithm.h`: Algorithm, Ghosts, LocalFaces
* `src/util/Combinatorics.h`: Combinatorics
* `src/util/Hash.h`: Hash
* `src/util/LinearAllocator.h`: LinearAllocator
* `src/util/Math.cpp`: Combinatorics, Quadrature
* `src/util/Math.h`: Combinatorics
* `src/util/MultiIndex.h`: MultiIndex, RefElement
* `src/util/Permutation.h`: Combinatorics
* `src/util/Schema.h`: Main, Schema
* `src/util/SchemaHelper.h`: Main, Schema
* `src/util/Stopwatch.h`: Profile
* `src/util/TablePrinter.cpp`: TablePrinter
* `src/util/TablePrinter.h`: TablePrinter
* `src/util/Zero.cpp`: Zero

Files of src/ and app/ no definition cites (not modelled):

* `app/common/Banner.cpp` (106 lines)
* `app/common/Banner.h` (44 lines)
* `app/common/PetscDGShell.cpp` (57 lines)
* `app/common/PetscDGShell.h` (27 lines)
* `app/common/PetscLinearSolver.h` (75 lines)
* `app/common/PetscUtil.h` (38 lines)
* `app/common/lapack.h` (10 lines)
* `app/common/ts_util.h` (14 lines)
* `app/common/vecnest_util.h` (8 lines)
* `app/form/AbstractAdapterOperator.h` (34 lines)
* `app/form/VolumeFunctionalFactory.h` (42 lines)
* `app/kernels/flop_counter.cpp` (2 lines)
* `app/kernels/generate.py` (72 lines)
* `app/localoperator/Adapter.h` (28 lines)
* `app/localoperator/NodalInterpolation.h` (47 lines)
* `app/pc/eigdeflate.h` (9 lines)
* `app/pc/lspoly.h` (9 lines)
* `app/pc/register.cpp` (28 lines)
* `app/pc/register.h` (12 lines)
* `app/pc/reig_aux.h` (73 lines)
* `app/preprocess.cpp` (73 lines)
* `app/tandem/ContextBase.h` (48 lines)
* `app/tandem/SEAS.h` (13 lines)
* `app/tensors.cpp` (83 lines)
* `app/test-gauss.cpp` (285 lines)
* `app/test-mesh.cpp` (148 lines)
* `app/test-scatter.cpp` (124 lines)
* `app/warp-blend-opt.cpp` (234 lines)
* `src/basis/Equidistant.h` (53 lines)
* `src/basis/GaussLegendre.h` (18 lines)
* `src/basis/Nodal.h` (45 lines)
* `src/form/AbstractInterpolationOperator.h` (19 lines)
* `src/form/DGOperatorTopo.h` (93 lines)
* `src/form/LocalOperatorInterface.h` (70 lines)
* `src/form/SolverInterface.h` (32 lines)
* `src/interface/BlockMatrix.h` (26 lines)
* `src/interface/BlockVector.h` (33 lines)
* `src/interface/BlockView.h` (20 lines)
* `src/io/DataType.h` (60 lines)
* `src/io/Endianness.h` (18 lines)
* `src/io/HDF5Writer.h` (48 lines)
* `src/io/PVDWriter.h` (37 lines)
* `src/io/Probe.h` (17 lines)
* `src/io/ScalarWriter.h` (37 lines)
* `src/parallel/DistributedCSR.h` (16 lines)
* `src/parallel/MPITraits.h` (68 lines)
* `src/parallel/MetisPartitioner.cpp` (36 lines)
* `src/parallel/MetisPartitioner.h` (23 lines)
* `src/script/LuaLib.cpp` (83 lines)
* `src/tensor/EigenMap.h` (56 lines)
* `src/tensor/Managed.h` (72 lines)
* `src/tensor/Utility.h` (26 lines)
* `src/util/Enumerate.h` (69 lines)
* `src/util/NullStream.h` (23 lines)
* `src/util/Range.h` (84 lines)
* `src/util/Scratch.h` (36 lines)
* `src/util/Sequence.h` (36 lines)
* `src/util/Traits.h` (14 lines)
* `src/util/Typelist.h` (10 lines)
* `src/util/Utility.h` (26 lines)
* `src/util/Zero.h` (44 lines)
<!-- /coverage -->

## Findings

What reading the code for the model turned up. Where a theorem states it, its name is given; the others are observations from reading and are not proved.

* Mesh lexer hangs on exactly the inputs of `C34_getToken_hangs_iff`.
* CPU masks: `1 << (cpu % 64)` on `int` is undefined for CPUs from 32 on; on x86 CPU c also reports c xor 32 (C19). The text form has a spurious trailing '-' when the number of CPUs is 1 modulo 10.
* `getSharedRanks`' second exchange and `BoundaryMap`'s default use `MPI_COMM_WORLD` instead of the communicator; the owner of a face need not hold it (`C22_owner_may_not_hold`); `LocalFaces::permute` does not permute `volumeTagData_`.
* Generated meshes: the documented bound (cell width at most h) is false, the true bound is 1.5 h (C28); a first region narrower than h/2 gives NaN vertices.
* `MeshParser.h`: the table of node counts is shifted by three from element type 76 on.
* HDF5 mesh reader: a tag given only by the second tetrahedron of a facet is lost (`C37_tag_lost`).
* HDF5 writer: rewriting a step behind the extent reads behind the buffer; restart with checkpointing throws at the first data set; probe names shorter than the global maximum are read out of bounds (`C67_short_names_out_of_bounds`); the first two outputs of the moment rate share step 0.
* Time-step checkpoints: a limit of one slot is unsafe, and so is a restart from slot 0 (C45 witnesses); the slot counter and the time of the last checkpoint start anew on restart; `last_checkpoint.txt` is not written atomically; non-root ranks broadcast with an empty buffer when a directory is loaded.
* Restart: a scheme without `ops->load` and without controller reads the controller twice (`C69_controller_read_twice`); the tableau is not compared (`C69_tableau_not_checked`); `TSSetFromOptions` after loading lets options such as `-ts_dt` override the checkpoint (`C69_options_override`); `load_directory` on several ranks: rank 0 does not take part in the broadcast (`C92_load_not_collective`).
* `format_time` prints minus one hour as 0s (`C49_negative`).
* Multigrid: at degree 0 the (default) strategy TwoLevel throws `std::logic_error` (`C91_degree_zero`).
* Green's functions: windows without any complete checkpoint (`C44_rename_window`), `C44_labels_missing`, `C44_unfinished_change`.
* `zeroIn`: with zero tolerance (documented as fine) a sign change without a zero at the origin is never resolved in exact arithmetic (`C11_zero_tolerance_loops`).
* Friction: zero shear stress gives a NaN slip rate without an error (`C47_no_shear_stress`); the slip law is undefined at V = 0 (`C76_at_rest`); `std::max` ignores NaN in VMax.
* Matrix-free and assembled operators differ for boundary facets with condition None, interior facets with condition Natural, and for BR2 (C70 witnesses); BR2 is not symmetric for variable coefficients (C71).
* `Poisson::mu_avg` reads nodal coefficients as values at facet points (`C80_mu_poisson_wrong`).
* Point location: the residual test only looks at the last coordinate (`C60_wrong_point`); a start value that is already exact throws (`C60_throws`); the boundary variant does not return to the first candidates (`C60_wrong_facet`).
* Dubiner gradient in one dimension misses the factor 2 (`C55_line_wrong`), hence `C78_gradient_line`.
* Error norms: the H1 seminorm reads the wrong entry of the Jacobian (`C62_H1_wrong_entry`); on ranks other than the target the result is undefined.
* Lua: an error leaves values on the stack (`C52_errors_leak`); errors when loading a file are only printed.
* static: the exit code is that of `PetscFinalize` even if the solver did not converge (`C93_not_converged`); then every rank prints the message, and no output file is written. The help text says the resolution is non-negative, zero is refused (`C93_valid`).
* HDF5 volume probes of a fully dynamic run: the writer stores the velocity only, the displacement is computed and dropped (`C94_hdf5_drops_second`); field names, too, are those of the first function.
* `CurvilinearVTUAdapter::jacobianInv` ignores the start of the element range, `map` adds it (harmless: the range starts at 0). `FrictionOperator::state`/`params` without a list of faces assign through an empty `std::optional`. When the slip-rate solver fails, `throw;` without an active exception ends the program by `std::terminate` (C95).
* The `.pvd` file is rewritten in place for every output, so a crash during `SaveFile` loses the list of the whole series (`C96_list_lost`); a restarted run numbers its outputs from 0, overwrites the earlier ones and lists only its own (`C96_restart`); when an output file cannot be opened the program prints a message and continues, and `FaultWriter`/`DomainWriter` ignore the result of `write`.
* `Elasticity::prepare_cfl` multiplies the elastic part of the bound of the spectrum with the inverse density but not the penalty part. The bound is proved for density at least one in the units used (`C97_step`); for smaller density the penalty part is too small and the step can be too large, for large density (SI units) the step is needlessly small, and it depends on the unit of mass (`C97_units`). The table of gradient constants for tetrahedra times 4 is about seven times what the proof needs.
* The projection of the material is not positive: a positive function that varies strongly inside an element can have negative coefficients at nodes, and `prepare_penalty` takes the minimum and maximum of the coefficients, so the penalty of a facet can be negative (`C98_negative`). No check warns the user.
* `DGOperator::solution` and `params` with the default range assign `*range = Range(...)` to a disengaged `std::optional` (src/form/DGOperator.h, `solution`, `params`): undefined behaviour by the standard, which works in practice only because the storage is there. Not modelled.
* `MonitorFD::monitor` ignores the first-same-as-last flag: with other integrators (RK4, Euler) the fault output of a fully dynamic run combines the new fault state with the traction of the last stage, and VMax is that of the last stage (`C100_fd_stale`; `MonitorQD` recomputes, `C48_not_fsal`). `MonitorFD::write_static` skips the moment rate writer, so the moment rate file of a fully dynamic run has no vertices and facet numbers (`C100_fd_no_facets`). An unknown mode does nothing without an error (`C100_unknown_mode`; the parser refuses it).
* Configuration: keywords match as prefixes, also empty or abbreviated (`C53_abbreviations`); a required key missing in the file cannot be given on the command line (`C53_required_in_file`); `from_chars` gets a wrong end pointer; defaults are not validated (C12).
* `SeasFDOperator::initial_condition` exchanges ghosts before u is set (`C90_fd_initial_stale`).
* Deflation preconditioner: the pre-smoothing result is overwritten (`C87_presmoothing_lost`); after `PCReset` one work vector stays NULL.
* lspoly: for alpha + beta = -1 the first recurrence coefficient is dropped (`C85_wrong_weight`).
* Reference normal perpendicular to a fault facet: the sign of the slip depends on the order of the sides (`C89_slip`); after the sign flip the 3D fault basis is left-handed (C79).
* Quadrature: `1 << (a+b)` is undefined from 31 on; order 3 on triangles uses the tensor rule; one tabulated triangle rule has points 5e-109 outside.
* Default Lamé parameter: 0 in `SeasScenario`, 1 in `ElasticityScenario`.
* Tensors: `set_constant` on a strided view writes outside the view; `copy_values` does not end for D = 3 with second extent 0 (C13).

<!-- axioms -->
## Axioms of each theorem

Generated by `tools/axioms.py` from `#print axioms` for the 629 theorems of MANIFEST.json. Only the three axioms of Lean itself (`propext`, `Classical.choice`, `Quot.sound`) occur. The theorems named below depend on fewer of them; **every other theorem of the manifest depends on exactly `propext, Classical.choice, Quot.sound`**.

* no axioms (5): `C07_collision_at_13`, `C08_factorial_21_wraps`, `C09_allocation_size_zero`, `C15_zero_ranks`, `C92_no_load`
* `propext` (29): `C01_unflatten_ub_iff`, `C03_not_a_permutation_may_diverge`, `C09_overflow_witness`, `C12_error_names_field`, `C12_unknown_keys_ignored`, `C12_non_table_is_empty_table`, `C12_default_not_validated`, `C13_set_constant_strided`, `C16_empty_single_rank`, `C16_id_too_large`, `C24_volume_tags_not_permuted`, `C35_malformed_nodes_accepted`, `C35_untagged_inherits`, `C35_node_out_of_range`, `C35_node_counts`, `C35_hexahedron_counts_wrong`, `C42_restart_throws`, `C42_fresh_file`, `C50_boundary_mesh`, `C58_faces`, `C88_set`, `C53_argv`, `C53_same_decision`, `C69_tableau_not_checked`, `C69_options_override`, `C69_nested_needs_upgrade`, `C92_monitors`, `C92_fsal`, `C100_static_requests`
* `propext, Quot.sound` (95): `C02_product_not_earlier`, `C02_zero_extent_visits_bogus_index`, `C02_zero_extent_witness`, `C03_apply_permutation`, `C03_apply_permutation_perm`, `C04_find_blocks`, `C08_rangeProduct`, `C08_rangeProduct_diverges`, `C08_factorial`, `C09_blocks_ok`, `C09_allocate_iff`, `C09_allocation_size`, `C10_running_eq_whole`, `C12_translate_iff`, `C12_field`, `C12_iEquals_is_prefix`, `C13_wf`, `C13_copy_values_diverges`, `C16_unique`, `C17_default_layout`, `C18_owner_has`, `C18_consistent_of_sorted`, `C19_conversion_always_undefined`, `C19_worker_mask`, `C20_mk_sorted`, `C20_eq_iff_perm`, `C22_sharing_symmetric`, `C22_owner_may_not_hold`, `C26_empty_direction_ub`, `C29_out_of_range`, `C35_well_formed`, `C35_bad_header`, `C40_cells`, `C40_roundtrip`, `C42_rows_partition`, `C42_rewrite_reads_out_of_bounds`, `C43_first`, `C43_consecutive`, `C43_outputs_sublist`, `C43_moment_rate_steps`, `C45_latest`, `C45_previous_survives`, `C46_degree_zero`, `C46_unknown`, `C48_not_fsal`, `C48_fsal`, `C48_fsal_moment_rate`, `C48_final_displacement`, `C51_vector_blocks`, `C65_degree_zero_out_of_bounds`, `C67_probe_names_partial`, `C67_short_names_out_of_bounds`, `C68_dt_limits`, `C64_pre_init`, `C64_init`, `C64_rhs`, `C64_output`, `C64_names`, `C52_hasMember`, `C52_constant`, `C88_no_table`, `C90_cfl`, `C53_bc_word`, `C53_bc_lookup`, `C53_relative_path`, `C53_parent_directory`, `C53_main`, `C69_roundtrip`, `C69_layout_checked`, `C69_class_checked`, `C69_controller_read_twice`, `C69_resume`, `C92_monitor_arguments`, `C92_step_limit`, `C92_load_root`, `C92_load_not_collective`, `C93_calls`, `C93_collective`, `C93_reports`, `C93_main`, `C93_same_decision`, `C93_not_converged`, `C95_pre_init`, `C100_fd_last`, `C100_fd_fsal`, `C100_solution`, `C100_params`, `C100_starts`, `C100_qd_calls`, `C100_green_calls`, `C100_fd_calls`, `C100_collective`, `C100_reports`, `C100_unknown_mode`, `C105_lines`
* `propext, Classical.choice, Quot.sound` (500): all others
<!-- /axioms -->
