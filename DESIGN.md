# Formal model of bempp/bempp (Lean 4)

The model covers the *logic core* of bempp: hierarchical-matrix partitioning and arithmetic
(lib/hmat), the FMM octree (lib/fmm), grid bookkeeping (lib/grid), function-space dof maps
and their barycentric and dual versions (lib/space), operator assembly (lib/assembly), and the
quadrature, local-assembly, shape-function and shape-transformation layer (lib/fiber).
The Python layer (operators, blocked operators, grid functions, solvers, the shapes' geometry, Gmsh
files) is modelled as well.  Everything is read from the text in /repo; nothing was compiled or run.

## Layout

* `lean/Verif/Model/*.lean`  – executable definitions, each with a comment citing the file and
  lines it models and the simplifications made.
* `lean/Verif/Spec/*.lean`   – small independent specifications used in statements.
* `lean/Verif/Lemmas/*.lean` – helper lemmas.
* `lean/Verif/Props/*.lean`  – the property theorems, named after the property id
  (`C05_…`), and next to each the `example`s that its hypotheses are met by a concrete
  non-trivial case.

## Trusted base

* Lean 4.33.0 kernel.  Axioms: only `propext`, `Classical.choice`, `Quot.sound`.
* The reading of the C++ text.
* Arithmetic: floating-point numbers are modelled by exact numbers (an arbitrary field, ordered
  field or `StarRing`, as each theorem states).  Rounding, overflow to infinity and NaN are not
  modelled.  `std::size_t`/`int` are `Nat`/`Int` unless the property is about machine width
  (Morton codes, signed/unsigned comparison, 8-bit counters), where `BitVec`/explicit modulus
  is used.
* `std::sort` is modelled as *any* permutation of its input; TBB parallel loops as any
  interleaving of their critical sections; `std::map`/`std::set` as ordered association lists,
  `unordered_*` as any order; MPI_Allreduce(SUM) as the sum over ranks.
* External libraries are trusted and modelled by what bempp uses of them: Dune reference elements
  (numbering of facets and vertices), Dune's P1 and RT0 local bases, affine triangle geometry
  (`jacobianTransposed`, `jacobianInverseTransposed`, `integrationElement`), Eigen's and BLAS's
  matrix algebra (exact), Boost containers, TBB's locks.
* Undefined behaviour (out-of-range access, null dereference) is a separate outcome `ub`, C++
  exceptions an outcome `throw`.

COVERAGE.md (generated by `tools/coverage.py`) lists for every model module the files and lines of
/repo it models, and every file under /repo/lib, /repo/python and /repo/cython that is not modelled.
In particular these are NOT modelled: numerical accuracy of quadrature rules and floating point, VTK
output, OpenCL, most of the Cython bindings, the special functions, and Gmsh, scipy and FEniCS
themselves (only what bempp hands to them).

The per-property plan follows; the final status is in MANIFEST.json.

## Properties: what is modelled and how it is proved

| id | model | proof |
|----|-------|-------|
| C01 | `splitClusterTreeByGeometry` as recursion on the index list with an arbitrary sort; the sequence of `addDofIndexPair` writes | induction over the recursion; the writes at the leaves form a bijection |
| C02–C03 | same recursion, tree of ranges | induction |
| C04 | node payload computed by an arbitrary bounding-box fold over the node's dof list | induction; payload's dof list = range of the permutation |
| C05–C08 | `initializeBlockClusterTree` over two cluster trees, arbitrary admissibility function | induction on the row tree; C06, C08 are false as stated: negation by a concrete tree + `_partial` |
| C09 | BFS queue loop of `leafNodes` | loop invariant; level order |
| C10, C54 | `BoundingBox` over an ordered field | case analysis, nonlinear arithmetic; C54 false: negation + partial |
| C11–C13, C15, C16 | `HMatrix::apply`, dense and low-rank `apply`, permutations | linear algebra over a star ring; schedule = any permutation of row updates; MPI = sum over ranks |
| C14 | initialise/reset state machine | false: negation (two `initialize` calls double the result) + partial |
| C17 | `compressBlock` | false: negation + partial |
| C18–C20 | ACA state machine with arbitrary entry oracle | invariants along the loop; rank argument with Mathlib `Matrix.rank` |
| C21 | recursive norm with `at` | partial for nproc = 1; negation for nproc > 1 |
| C22, C45, C46, C47, C49, C52, C53 | assemblers as folds of `+=` updates; local dof lists | double counting: both sides equal a sum over (element, local dof) pairs |
| C23–C28 | `BitVec 64` Morton codes; coordinates; octree constructor | bit-level lemmas by kernel-checked case analysis; FMM partition by induction over levels; C27 false: negation + partial |
| C55, C56 | octree leaf lists, extended cubes | fold invariant; ordered-field geometry |
| C29, C30 | sorted excluded lists, merge loops | list induction; C30 8-bit counter: negation + partial |
| C59 | `DataContainer` grid view, Dune facet numbering | consequence of the C31 tables |
| C57, C58 | `gridSegmentWithPositiveX`, `markExcludedEntities` | set membership; C57 false on refined grids: negation + partial |
| C31–C34 | fold over elements with association list of edges | invariant over the fold |
| C35, C36 | interleaving semantics of double-checked locking | inductive invariant over reachable states of N threads; C35 false: negation by a trace |
| C37 | ray test and counter | false: negation + partial |
| C38 | index arithmetic | arithmetic |
| C39–C44 | dof assignment loops | invariants over folds |
| C48 | mode tables | case analysis; CONJUGATE construction is wrong: negation + partial |
| C50 | cache state machine with weak pointers | invariant; races: negation |
| C51 | loop over unit vectors | linear algebra |
| C60 | `compressBlock` of the ACA compressor inside `HMatrix::initialize` | composition of C11, C18–C20 |
| C61 | Duffy transformation of each singular case with its regions, as maps on the unit cube | each region's image and Jacobian; the regions cover the pair of triangles once up to null sets |
| C62 | vertex comparison loops of `determineElementPairTopologyIn3D` | case analysis over all index coincidences |
| C63 | accuracy options, distance thresholds, descriptor selector | spec `OrderFor`; induction on the list of thresholds; duplicates of thresholds are undefined behaviour in the code |
| C64 | caches and loops of the integral operators' local assembler; the integrator is an abstract `form`, justified by C67 | loop invariants over the pair list |
| C65 | integrator map with `find`/`insert` race | invariant over reachable states |
| C66 | quadrature loops of the scalar-kernel integral in both implementations | double sums over the points; negation for one kernel with several transformations |
| C67 | integrators with their re-used geometry and basis buffers | the buffers are rewritten for each pair: independence from the previous contents |
| C68, C70 | barycentric P0/P1 and dual P0 dof loops; shapeset coefficient tables | affine maps of the sons; false for segments: negation + partial |
| C69 | barycentric RWG/RT/Nedelec dof loops, weights and coefficient tables | contravariant transformation of each son (C71) and tables of 6 × 3 cases; negations for junctions and segments |
| C71 | `getData` of a triangle, the transformation functors, dependency bits | vector algebra over the reals |
| C72 | values of RWG/Raviart-Thomas/Nedelec functions on the triangles of a grid (dof maps and weights of C43, shape functions of C69, transformations of C71) | flux of a shape function through a side = inverse length or 0; edge identity of C31; weights of C43 |
| C73 | `evaluate`, counts, dependencies and assertions of the 18 kernel functors without interpolation | directional derivatives and limits in Mathlib's analysis; each kernel is an affine function times a radial factor |
| C74 | `HermiteInterpolator`, `initializeInterpolatorForModifiedHelmholtz3dKernels`, the seven interpolated functors, `maxDistance` | polynomial identities per cell; error term by Rolle's theorem three times; corners of the boxes cover all coordinate-wise extremes |
| C75 | the tables of gausstria.hpp and gausstensor.hpp (all numbers, generated by tools/quadtables.py), `QuadratureRule`, `fillSingleQuadraturePointsAndWeights` | moments of the triangle and the square by calculus, moments of the tables evaluated in integers by the kernel (`decide +kernel`, the whole tables), polynomials by linearity |
| C76 | the local assembler of local operators, the test-trial integrator and integral, the descriptor selector, the integrand functors of identity and Maxwell identity, constant, linear and Raviart-Thomas shapesets; triangles; real shape functions (functors also complex) | batches: induction over the set of variants; exactness from C75 and C71; closed forms from the moments of quadratic polynomials |
| C77 | the local assembler of grid functions, the test function integrator, the descriptor selector, the four classes of functions, `reallyCalculateProjections`; triangles, real test functions, complex functions | batches as in C76; exactness from C75; the mass matrix from C76; the global vector from the lemmas of C45 |
| C78 | `PythonFunctor`: reference counts and the array for the result; arbitrary callables (that release nothing they do not own) | invariant over histories |
| C79 | the local assembler of potential operators, the kernel-trial integrator and integral, the descriptor selector, the four integrand functors and the kernels and transformations of the 14 operators; triangles; real shape functions | induction over the batches; independence of the old contents of buffers; geometry lemmas for centroid and longest side |
| C80 | the dense assembly of potential operators (C45, C79), the constructor and `apply` of `AssembledPotentialOperator` (C51) | linearity of the integrand functors; kernels as derivatives and limits of the fundamental solution (C73); second derivatives of products of polynomials and radial factors |
| C81 | operator classes and `as_matrix` of discrete_boundary_operator.py, SciPy's `LinearOperator` wrappers, NumPy's shape rules; entries are complex numbers, floating-point rounding is not modelled | induction over expressions: every evaluated operator represents its matrix |
| C82 | transposes, adjoints, `rmatvec`; the Cython wrappers with their mode table | the same induction; tables by cases; negations for the entries that are wrong |
| C83 | `_Solver` with its normal equations; SuperLU is modelled as the exact solver of nonsingular systems | Moore-Penrose inverse: existence, uniqueness, least squares and least norm |
| C84 | classes of boundary_operator.py with their caches, projections, `rewrite_operator_spaces`; assembly is an arbitrary function of operator and time that does not raise (C84_histories) | invariant of the caches; induction over the program; matrices from C81/C82 |
| C85 | GridFunction objects as a mutable heap: construction, `coefficients`, `projections`, `+`, factors, `real`, `imag`, application of operators, `l2_norm`, accumulation in `integrate` | invariant: every object stands for a function; matrices from C81-C84 |
| C86 | discrete blocked operators: constructor, `_matvec`, sums, products, multiples, `op[i, j]`, `as_matrix` | loop invariants over block rows and columns; block matrices over C81 |
| C87 | blocked boundary operators (`blocked_operator.py:26-448`): `__setitem__`, spaces, weak and strong forms with their caches, sums, products, multiples, multiplication with lists of grid functions | a pure semantics without caches, an invariant relating the caches to it, induction over the program for the block matrices |
| C88 | `iterative_solvers.py` and the list helpers of `blocked_operator.py`; SciPy's solver is an arbitrary function of `matvec` and the right-hand side, `make_system`'s shape checks included | the tuple is taken apart; weak and strong systems are those of the matrices of C84 and C87; the strong system is inverted with the mass matrices; SciPy's promise (`Reliable`) is a hypothesis, met by an explicit exact solver |
| C89 | `_pade_coeffs`, `_OsrcDtn._weak_form_impl`, `_OsrcNtd._weak_form_impl` over the discrete operators of C81, with exact complex numbers, `cpow` for the damping | closed form of the approximant through a sum over roots of unity and pairs of conjugate roots; nonzero denominators by parity; Rayleigh quotients for the nonsingularity; the weak forms are expressions of C81; modes diagonalise the matrices |
| C90 | `PotentialOperator` (`is_compatible`, `__add__`, `__mul__`, `__neg__`, `__sub__`, `evaluate`), `potential_logger` and the constructors, over the discrete operators of C81; the norm of the point difference as numpy computes it, with broadcasting; the reshape in Fortran order | induction on expressions; C81 for the discrete operators; zero norm iff equal arrays |
| C91 | `lu`, `compute_lu_factors`; `scipy.linalg.solve` and `lu_solve` are exact and refuse singular matrices, `as_matrix` of C81 | C81_as_matrix and the mass-matrix lemmas of C88 |
| C92 | `mark`, `get_mark`, `clear_marks`, `refine` of grid_view.py: the marking loop as a transition system (any element may be popped), the table of children; coordinates are reals; any reference edges; `grid_from_element_data` is taken to keep vertices and elements (C01-C03) | the number of uncut reference edges plus the number of marks decreases; invariant: the refinement numbers are a numbering of a subset of the closure; at the end equality; children as an explicit list, equal to the inductive bisection; edges of the children = halves of the boundary edges + inner edges twice; the old vertices an edge stands for tell which edge or element it comes from |
| C93 | all of gmsh.py: the reader (`readline`, `rstrip`, `decode`, `split`, `int`, the three sections in text and binary form, unknown lines skipped), the renumbering by first use with numpy's negative indices, the writer with its data sections, and `export(grid=...)`; files are lists of bytes, doubles an abstract type whose text and 8-byte forms are lossless | the writer's output is a fixed sequence of lines and records; each section's reader returns what was written; data sections are lines that the loop skips; the renumbering equals a fold that appends unseen vertices; termination: every pass consumes a byte, every element block twelve |
| C94 | json.py and the dictionaries of general_interface.py: base64 (encoder, and the decoder that skips foreign characters), numpy buffers, reshape in C order, the constructors with their checks, `a + 1j*b` with infinities; `json.dump`/`json.load` themselves are taken to be lossless | the decoder inverts the encoder by induction over groups of three bytes; items of fixed size are cut out of the flat buffer; rows out of the flat array; exact complex recombination for finite imaginary parts |
| C95 | _common.py, hypersingular / pairs / multitrace of laplace.py, modified_helmholtz.py, maxwell.py, multitrace_identity, projection.py as programs that allocate operators of the model of C84; integrals are exact and basis functions independent, no space has exactly one function (C83); integral operators are bilinear forms on a real vector space with the L2 product | the Gram matrix is invertible, its inverse gives L2 projections; each constructor transports a bilinear form (sandwiches with adjoints of strong forms, projections, transposes, sums), the programs are sequences of constructors; C82 gives the action, C84 the histories |
| C96 | assignDofsImpl of the two spaces function by function: tables of the fine and coarse grid, walk around both ends of each side with its loop counter, coefficients in a field, undefined reads and non-termination as outcomes; shapesets over the RT0 / Nedelec functions of C72 | corners of triangles and the successor around a vertex; on an oriented surface the walk visits each fine triangle at the vertex once (fan, closed or open), so the state is a list of pushes with closed-form coefficients; opposite coefficients on touching triangles; flux of RT0 functions (C72) |
| C97 | chebychev_tools_impl.hpp function by function over the reals (cos, pi): nodes, polynomial table, evaluation, child matrix, derivative weights; constructor with its refusal of order 0 | the nodes are Mathlib's Chebyshev extremal nodes, the weights of the code are the Lagrange basis (both have the degree and the nodal values), then uniqueness of interpolation; derivative of the basis at the nodes |
| C98 | operator recipes (kernels, transformations, integrals) of all boundary operators; both numerical integrators with their data flow through the integral classes (default functors, typical scalar BLAS kernels), rule family, local assembler with caching, dense assembly with schedules | each integrator's entries are sums over nodes (state of buffers irrelevant), integrands equal the forms by the kernel theorems C73/C74; composition with C64 (local assembler) and C45 (dense assembly) |
| C99 | the tables of quadrature points, tensor rules and Duffy rules of C61/C75; same setting as C98 | kernel evaluation of table checks; Duffy regions lie inside, separation of the two points bounded below by the weight; refMap injective; then C98 |
| C100 | the loops over levels, cells, vertices with `vertex_map` / direct midpoints; the statements written (points, lines, loops, surfaces) as data; exact real coordinates; Gmsh itself not modelled | integer barycentric coordinates: a midpoint (odd coordinates) determines its cell and edge, so the dictionary finds it exactly when it exists; induction over cells and levels |
| C101 | the loop over levels (lists of points and lines, replaced and appended per line) and the statements written, exact real coordinates | the code's line list is a permutation-tracked polygon; simplicity by induction with a triangle region around every side that contains all its descendants |
| C102 | `is_solid`, the `EdgeGenerator` dictionary, the six blocks per cell, the point loop, as statements; exact coordinates | `is_solid` equals the recursive sponge; no two cells touch in an edge only (induction on digits), so the 576 ways two sides can have an edge in common (decided) leave one; edge-generator invariant |
| C103 | the loops over levels, squares and grid points, `all_edges`, as statements; exact coordinates | invariant: every square's indices are at the corners of its cell; dictionary invariant for the lines; duplicate points from level 2 on tracked to every level |
| C104 | `SphereMesh`: octahedron, `refineTriangles` with its edge map, projection, radius and offset; exact real arithmetic | loop invariant for the edge map; level invariant: closed, positive determinants, and nonnegative coefficients at the corners of one element are determined by the point (decoding formula through the refinement) and exist for every point |
| C105 | `iterate_leafs`, `data_block`, the counters, the `int` accumulator of the memory size with its truncation at each step, for any enumeration order | DFS = all leaves on block trees; fold invariant for reassembly with the tiling of C05; floor sums; perfectly balanced trees for the unbounded counterexample |
| C106 | Factory and grids as a heap: the node and element vectors are shared between factory and grids, edges and domain indices are not; raw pointer import; the loops of `union` | invariants over call sequences; reduction of `union` to the factory theorem; prefix sums |
| C107 | Lookup with cache over histories, index maps, COO assembly, state machine of the marks | fold invariants; counting; induction on histories |
| C108 | Python wrapper with row selection and offset on top of C38 | transport of C38 along the placement map |
| C109 | Loop that stores rows by local dof number and pushes global dofs and reference points in another order; companion of the continuous space; space of constants | fold invariants; the local dofs met are a permutation of the lattice of nodes; comparison with C44 node by node |
| C110 | Loop that collects the dofs of vertices, the three matrices of the trace and their product, cached weak form with global backend setting; FEniCS itself is a parameter | invariant of the loop over elements on top of C39 and C106; sums over coordinate matrices; case analysis |
| C111 | Memory as a list of blocks (user or library, live or freed), array objects with extents, pointer, ownership and strict flag; every operation of the three classes; exceptions and undefined behaviour as outcomes | invariant of all reachable states (ownership is unique, sizes fit, nothing leaks); frame and read-back lemmas per operation; column-major numbering is a bijection |
| C112 | `function_space` and the 15 space classes of the Python API, the core factory, the adaptive space with its segment factory, on top of the dof maps of C39, C40, C43, C44, C109 | explicit result of each constructor; segments of C30 turned into parts of the grid; each dof of the continuous space found in the discontinuous one; keys are sorted domain lists |
| C113 | the parameter tree, the 24 Python properties, `global_parameters()`, `ParameterList()`, `Context`, `EvaluationOptions`, the readers of H-matrix options, creation and assembly of an operator | invariant of histories: every list agrees with the last accepted assignment; the quadrature orders follow from C63 |
| C114 | `assemble_singular_part`, `_matrix_from_integration_pairs`; sets as lists in arbitrary order; local assembler as a pure function (C64); for complex weights the code conjugates the trial weights too, the theorem assumes real ones | the integer product of incidence matrices is nonzero iff a vertex is shared (C107); sums over global-to-local lists turned into sums over the elements; comparison with C45 |
| C115 | boxes and positions of the dofs of continuous and discontinuous P1, P0, continuous polynomial, RWG/RT/Nedelec, (rotated) Buffa-Christiansen spaces and the vector spaces on the barycentric refinement; elements are flat; `SpaceHMatGeometryInterface`; coordinates below the largest number | folds of `extendBoundingBox` characterised by the boxes that contain them; dof maps of C39, C40, C43, C44, C96; hulls of C04, separation of C07, distance of C10 |
| C116 | positions of the dof boxes (C115) as interpolation points, and the averaged normals, for continuous and discontinuous P1, P0 and the P0 and P1 spaces on the barycentric refinement; flat triangles; division of zero by zero is `none` | corners of the reference triangle and the injectivity of the element map; uniqueness of the unit normal; permutation of the local dofs of a dof and the triangles on which it lives |
| C117 | the containers of functors, `operator_from_functors`, `identity`, `_maxwell_identity`, `laplace_beltrami`, the curl and normal operators of the hypersingular operators, on the assembly of C76 | integrands as polynomials, exactness of the rules (C75), explicit surface curl of the linear functions |
| C118 | the methods of GridFunction that evaluate and integrate, over the triangle rules of C75, the shapesets and transformations of C71/C76 and the dof maps of C39; real arithmetic on elements with real coefficients; exceptions of the in-place addition; real and complex numbers instead of floating point | sums over local functions; dependencies of the transformations (C71); last write to a vertex column; exactness of the rules for quadratic polynomials (C75); positivity of the weights |
| C119 | `spaceIsCompatible` and `spaceIdentifier` of the 21 space classes and of the adaptive space, barycentric grids as cached objects, refinement with its update signal; histories of these as lists of operations | invariant of the histories: barycentric grids are younger than and belong to one grid, adaptive spaces are what their constructor would make now; case analysis over pairs of classes |
| C120 | `DefaultEvaluatorForIntegralOperators` (constructor, cached data, chunks), `DefaultKernelTrialIntegral::evaluate`, far-field descriptors | linearity of the transformations and integrand functors, the copy into the big arrays as concatenation, chunks cover every point once; agreement with C80 |
| C121 | `discontinuousSpace` and `isDiscontinuous` of the 21 space classes with the member that keeps the result, on the worlds of C119 | invariant of the histories: what is kept was made from the space when its grid had not been refined more often; the components of the transformed vector shape functions are affine on the reference triangle |
| C122 | the conversions of eigen.pyx with `np.require`, the flag F_CONTIGUOUS and typed memoryviews as documented, arrays as views of memory with strides | the flag determines the addresses of the entries; loops of writes at different addresses by induction |
| C123 | `memory`, `elementary_operators`, `_memory` of the classes of discrete operators, objects with identities, Python's `set` and `dict` under `\|` | induction over the operator: the set has the objects that occur; the sum of a duplicate-free list does not depend on its order |
| C124 | `export_data_sets` of vtk.py, lines of tokens; a reader of the format as specification (the data line by line, a state machine) | reading what was written, section by section: induction over rows, fields and time steps |
| C125 | `log`, `enable_console_logging`, `enable_file_logging`, `set_logging_level`, `timeit`; Python's `logging` as documented | invariant of histories: the levels of the handlers of a target are those of the calls that enabled it |
| C126 | `check_type`, `combined_type`, `dtype` and the types of `_matvec` of blocked discrete operators, types of vectors made from lists; NumPy's promotion as documented | types are compared by the sets of IEEE numbers they hold; induction over operators |
| C127 | `export`, `transform_array`, `Data`, `bempp_object_to_grid_data_set`, `visualize`; numbers without rounding, values of functions at points given | induction over series; specification pointwise; with C124 the contents of VTK files as they are read back |

## Disagreements between the code and the claims

Each is a theorem `CNN_counterexample…`; the notes in MANIFEST.json say what it shows.  Among them:
C06, C08 (admissibility flags), C14 (second `initialize`), C17 (compressor cutoff), C21 (norm on
several processes), C26/C27 (octree ancestors), C30 (8-bit counter), C35 (published before built),
C37 (number of crossings), C40/C42/C43 (segments, junctions), C47 (imaginary parts dropped), C48
(CONJUGATE transposes), C50 (hash of addresses, null result, `aliveOperators`), C52 (nominal
distance), C53 (volumes out of bounds), C54 (empty box), C57 (refined grids), C62 (coincident
elements with permuted vertices), C63 (equal thresholds), C66 (kernel index), C68/C69 (segments and
junctions ignored), C71 (normals of plane curves), C73 (assertion of the double-layer gradient kernel on the number of kernels),
C74 (`HermiteInterpolator` reads past its vectors at the end of the range; interpolated operators cannot be constructed when the range is
shorter than a cell, in particular for wave number 0), C75 (orders beyond the tables are read before they are checked),
C78 (reference counts after an exception of a Python callable; values left from earlier points),
C81 (sums of dense operators with one row or column are broadcast; zero operators accept vectors of any length; the inverse of a
one-row sparse operator cannot be applied), C82 (the adjoint of a transposed wrapper is the transposed wrapper; the conjugate of a real
wrapper is its transpose; adjoints do not conjugate factors; zero operators cannot be transposed; `rmatvec` fails or does not conjugate),
C84 (recomputing a composite operator does not recompute its operands),
C85 (`projections(E)` of a function given by projections onto another space sets the dual space before computing the coefficients:
wrong result, and wrong coefficients from then on; `dual_space` of multiples depends on the history; coefficient vectors of any length
are accepted; `integrate` raises an exception for complex and for vector-valued functions),
C86 (matrices with too many rows are accepted and the rest is ignored; sums and products with an operator of one block row or
column compare the sizes with NumPy's broadcasting, so mismatched operators are accepted),
`BlockedOperator.__setitem__` does not invalidate a cached weak form (C87_counterexample_stale). `strong_form` of every blocked operator with different numbers of block rows and columns raises (IndexError, or ValueError from the range map), and so does the weak form of a product with such a second operand, although both are well defined (C87_product_nonsquare): the array of inverse mass matrices is allocated with the dimensions of the operator instead of rows × rows. `op * [f, …]` does not check the spaces of the functions (C87_counterexample_spaces),
`gmres` for blocked operators ignores right-hand sides beyond the number of rows in the weak case (`zip`), does not check the spaces of
the right-hand sides in the strong case, and both solvers inherit the wrong `projections` of C85: a right-hand side given by projections
onto a space other than `A.dual_to_range` is silently replaced by another one (`C88_counterexample_extra`, `C88_counterexample_rhs`),
Without damping (`damped_wavenumber` real) and with `theta = 0` the matrices inverted by `osrc_dtn` can be singular
(`C89_counterexample_undamped`); the documentation allows any value of both parameters,
`PotentialOperator.evaluate` never compares the space of the function with its own (`C90_counterexample_space`); the logger of
the constructors fails for `parameters=None` given by keyword and for points given by keyword (`C90_counterexample_logger`); there is no
`__rmul__`, so `2 * P` fails while `P * 2` works.  `lu` refuses every operator assembled as a sparse matrix, because `as_matrix` returns
a sparse matrix for it (`C91_counterexample_sparse`), and `compute_lu_factors` passes the operator itself to scipy, so it fails for
every operator (`C91_counterexample_factors`),
C92: `refine` informs only one neighbour of a cut edge (grid_view.py:296-306), so on grids where three elements share an edge the third keeps it and the new vertex hangs (`C92_counterexample_three`); `get_mark` indexes a set (TypeError as soon as anything is marked) and `clear_marks`/`refine` fail with AttributeError when nothing was ever marked (`C92_counterexample_marks`),
C93: `export(grid=...)` drops the domain indices, which come back as 0 (`C93_counterexample_domains`), and ignores `vertex_ids`/`element_ids` (`C93_counterexample_ids`); with several data sets the numbers of the first are used for all, so a larger later set fails with IndexError (`C93_counterexample_second_set`); binary files with data cannot be imported because the data are decoded as text (`C93_counterexample_binary_data`); a blank line ends the reading and leads to UnboundLocalError (`C93_counterexample_blank_line`); vertex 0 in an element silently means the last vertex (`C93_counterexample_vertex_zero`); an element without tags gets its first vertex number as domain index (`C93_counterexample_no_tags`),
C94: complex data without arrays comes back as real data (`C94_counterexample_empty`); an infinite or nan imaginary part turns the real part into nan because of `a + 1j*b` (`C94_counterexample_infinite`); `element_ids` of the wrong length are accepted and exported but the file cannot be read (`C94_counterexample_element_ids`); `import_data_sets(data_string=...)` never works (`C94_counterexample_data_string`),
C95: `use_slp` is ignored if the domain is not the dual space, the ValueError for that case is unreachable (`C95_hypersingular_direct`); the Helmholtz pair returns None for an unknown value of `spaces` while the Laplace pair raises a TypeError (`C95_unknown_spaces`); `calderon_electric_field` promises `E` itself as second result but returns the operator on the dual space (`C95_efie_squared`),
C96: on grids that are not consistently oriented the space does not raise the intended error "Please check your normal orientations" but reads index -1 of a vector (`C96_counterexample_orientation`); on grids that are not surfaces the rotated space loops for ever where the other one raises that error, and some such grids are accepted (`C96_counterexample_surface`); the segment is ignored,
C97: negative orders are not refused (`C97_counterexample_negative`) and write outside the vectors; `derivativeWeights3d` with a direction other than 0, 1, 2 returns an uninitialised vector,
C99: `C99_counterexample_outside`: the regular triangle rules of orders 11, 15, 16, 18 and 20 have points outside the triangle, so that kernels of disjoint pairs are evaluated off the elements,
C99: `C99_counterexample_two_grids`: for two grid objects with a triangle in common the pair is treated as disjoint; with equal orders the tensor rule has nodes whose points coincide and the kernel is evaluated at its singularity,
C102: all normals of `menger_sponge` point into the sponge (fractals.py:157-216), unlike those of the other closed shapes,
C103: from level 2 on `sierpinski_carpet` declares points of neighbouring squares twice (fractals.py:309-316), so that the squares are not connected,
C105: `mem_size` is accumulated in an `int` (hmatrix.hpp:88), so that each block's fraction of a kB is dropped: H-matrices of any size can report 0 kB and compression rate 0,
C105: with several processes `data_block` raises for the leaves of other processes (hmatrix_interface.pyx:110-139), although `leaf_nodes` offers them,
C106: `GridFactory.finalized` is never set (grid_factory.pyx:36-41) and the grid shares the factory's vectors: an insertion after `finalize` is accepted and adds a vertex or element to the grid already returned,
C106: the factory does not check vertex indices (undefined behaviour in `finalize`); `grid_from_element_data` does not check the shape of the arrays (grid.pyx:285-295), transposed arrays are accepted silently; a grid without elements cannot be cloned,
C106: `union` without `domain_indices` sets all domain indices to 0 (shapes.py:96),
C107: the first call of `element_from_insertion_index` or `vertex_from_insertion_index` on a grid returns the last entity whatever the argument (grid.pyx:111-131: the loop overwrites `index`),
C107: `get_mark` never returns True, it raises as soon as something was marked (grid_view.py:245, grid.py:69); `clear_marks` raises on a fresh grid,
C109: `discontinuousSpace()` of the continuous polynomial space ignores `strictlyOnSegment` (piecewise_polynomial_continuous_scalar_space.cpp:228): in strict mode the companion has additional dofs,
C109: `getFlatLocalDofPositions`, `...BoundingBoxes` and `...Normals` of the discontinuous polynomial space return the lists of the global dofs, whose order differs from that of the flat local dofs from order 2 on,
C110: `FenicsOperator.weak_form` does not restore `parameters['linear_algebra_backend']` when the assembly raises (fenics_operator.py:25-45),
C111: `operator+=` of all three array classes constructs `std::runtime_error` for different extents without throwing it (_2d_array_imp.hpp:124, _3d_array_imp.hpp:129, _4d_array_imp.hpp:99),
C111: copying an empty `_3dArray`, or resizing a non-empty one to an empty shape, sets all extents to 0 (_3d_array_imp.hpp:48-54, 166-169); the other two classes keep them,
C112: kinds of order 0 accept every negative order (space.py:821-868, `if order > 0`),
C112: `domains`, `closed` are silently ignored for kinds on the barycentric refinement (space.py:804-868); the core raises ValueError for them (space.pyx:375-431),
C112: the div-conforming companion of "RBC" is made without `comp_key` (space.py:679): it differs from function_space(grid, "BC", 0) and equals the companion on any other grid,
C113: reading a parameter of a new `ParameterList()` or an infinite one throws a C++ exception through functions not declared `except +` (parameter_list.pxd:17-20),
C113: an infinite distance threshold is accepted and silently replaced by the default in the assembly (context.cpp:97-105, `get` with default),
C113: an infinite `eta` makes H-matrix assembly fail with weak admissibility, which does not use it (hmat_global_assembler.cpp:143),
C113: equal distance thresholds of near and medium field are undefined behaviour (see C63),
C113: potential operators cannot be made with a `ParameterList()`, whatever is assigned to it (evaluation_options.cpp:34),
C113: `erase("options.quadrature.far.maxRelDist")` erases nothing: `erase` takes a key, not a path (global_parameters.cpp:94),
C114: `_matrix_from_integration_pairs` conjugates the trial weights (assembler.py:41-42), the dense assembler does not; harmless because all weights of the library are real,
C115: on the barycentric refinement the box of an RWG, Raviart-Thomas or Nedelec dof is the box of one of its two coarse triangles only, so clusters may be called admissible although supports touch (rwg_vector_space_barycentric.cpp:319-333 and three copies),
C115: `createBoundingBox` sets the reference point to half the size of the box, not to its mid point as documented (bounding_box_helpers.hpp:48-50),
C116: on the barycentric refinement the interpolation point of a P1 dof is in general a barycentre or an edge midpoint where its basis function is 1/3 or 1/2, because the number of the local dof is taken for the number of a corner (piecewise_linear_continuous_scalar_space_barycentric.cpp:323-400),
C116: on the barycentric refinement the interpolation point of a P0 dof is a vertex of its triangle, so that several dofs have the same point (piecewise_constant_scalar_space_barycentric.cpp:256-285),
C116: for grids of dimension one the dof normals are divided by the square root of x² y² instead of x² + y² (space_helper.cpp:168-171),
C117: the assertions of SingleComponentTestTrialIntegrandFunctor allow a component equal to the number of components (`>=` instead of `>`), so that `single_component_test_trial_integrand_functor(1, 0)` on scalar functions reads beyond the end of the values (single_component_test_trial_integrand_functor.hpp:64-65); outside the model,
C118: `integrate` raises an exception for functions that are not real or have several components (grid_function.py:283, 293-295),
C118: `l2_norm(element)` uses the order `quadrature.far.single_order`, so with order 1 the norm of the linear function with corner values 0, 1, -1 is 0 (grid_function.py:337-351),
C118: `relative_error` of a real grid function ignores the imaginary part of the function it is compared with, because `fun_vals` has the type of the grid function (grid_function.py:385-389),
C118: `relative_error` may be the square root of a negative number with the quadrature orders 3, 7, 18 and 20, which have negative weights (shown for order 3),
C119: adaptive spaces (all spaces of the Python API) only compare the number of dofs, so on a tetrahedron the constants and the continuous linear functions are compatible and operators accept functions of the wrong space (adaptive_space_impl.hpp:196-200),
C119: the concrete classes compare neither segments nor refinement levels (lib/space/*.cpp, spaceIsCompatible),
C119: PiecewiseLinearDiscontinuousScalarSpaceBarycentric returns the identifier of the continuous space and is compatible with the continuous linear functions, not with the discontinuous ones (piecewise_linear_discontinuous_scalar_space_barycentric.hpp:111-113, .cpp:152-165),
C119: vector spaces on the barycentric refinement are not compatible with the spaces they represent (e.g. raviart_thomas_0_vector_space.cpp:97-104),
C119: comparing a concrete polynomial space with an adaptive space of the same polynomials throws std::bad_cast (piecewise_polynomial_discontinuous_scalar_space.cpp:184),
C120: on a grid without elements `evaluate` divides by zero, even for no points (default_evaluator_for_integral_operators_imp.hpp:184-187; `C120_counterexample_empty`),
C120: outside the model: the Jacobians are copied as n x n arrays with n the second extent of gridDim x worldDim arrays, so that a kernel asking for them would make the copy run out of range on surfaces (:462-480); the domain index of the last element is kept for all points (:481-483); the geometrical dependencies of the integral are not collected (:259-265, unlike numerical_kernel_trial_integrator_imp.hpp:99-101),
C121: the counterpart of the dual-grid constants refers to the barycentric refinement of the barycentric refinement (piecewise_constant_dual_grid_scalar_space.cpp:142),
C121: the counterpart of the continuous linear functions on the barycentric grid is not discontinuous (piecewise_linear_continuous_scalar_space_barycentric.cpp:113),
C121: the counterpart of the discontinuous linear functions on a segment of the barycentric grid gets the segment of the original grid (piecewise_linear_discontinuous_scalar_space_barycentric.cpp:114),
C121: after a refinement of the grid, the first call makes a counterpart on the refined grid (e.g. piecewise_constant_scalar_space_barycentric.cpp:69),
C121: `discontinuousSpace` of the unit space throws (unit_scalar_space.cpp:44-48),
C122: an empty matrix returned to NumPy cannot be handed back: `&buf[0,0]` raises IndexError (eigen.pyx:9, 13),
C122: a read-only array is accepted if it has to be copied and rejected if not (`double[::1,:]` wants a writeable buffer, eigen.pyx:8),
C122: a complex array becomes a real matrix without its imaginary parts, with a warning only (eigen.pyx:8),
C123: `elementary_operators` of zero and rank-one operators returns `{}`, a dictionary: `memory` of a sum or product with one raises TypeError (discrete_boundary_operator.py:549-551, 602-604),
C123: `memory` of blocked discrete operators raises NotImplementedError, that of an inverse of a SciPy matrix AttributeError,
C124: the name of a field with a description is made from the title of the file or the name of the field before (vtk.py:78, 94: `description` for `data.description`),
C124: several data sets raise NameError (vtk.py:110: `index`),
C124: data of two components are left out (vtk.py:17-28),
C124: of a series without time steps only the first member is exported (general_interface.py:629),
C125: with `extended_verbosity` every timed function raises NameError after it has run (logging.py:91: `bempp` is not defined),
C125: the level of a second `enable_console_logging` is ignored (logging.py:50-56), a file that is enabled twice gets every message twice,
C126: integer vectors are refused by blocked discrete operators with ValueError 'Incorrect type (int64)' (data_types.py:10-11),
C126: a blocked operator scaled by `2 + 0j` has the type of the operator, its results are complex (blocked_operator.py:834); rank-one operators of complex64 vectors have type float64 (discrete_boundary_operator.py:573-576),
C127: `visualize` of a grid function with its default mode 'vertices' writes nothing (viewers.py:4, general_interface.py:143-153): the viewer opens an empty file,
C127: 'abs', 'log_abs' and 'abs_squared', documented for vector functions, raise ValueError for them: the container has the components of the function (general_interface.py:851-864),
C127: the type of a series is that of its first function: imaginary parts of later functions are lost (general_interface.py:853-857, 497); the time steps of a series default to [0], not [0, 1, ...] (general_interface.py:629).
Seen in the same file and not modelled: `add_element_data` and `add_vertex_data` of `GridDataSet` always raise NameError (`grid`, general_interface.py:633, 639), its `timesteps` cannot be set (AttributeError: `number_of_arrays`, general_interface.py:671), and the numbering that `three_planes_view` asks for is ignored by `export` (general_interface.py:946-951).
