{"id": "C01", "title": "Cluster-tree dof permutation is a bijection", "statement": "After building a cluster tree over a geometry with n dofs, originalDofToHMatDofMap and hMatDofToOriginalDofMap both have length n, are permutations of 0..n-1 and are inverse to each other.", "quantifier": "every n, every geometry, every order in which the (unstable) sort may leave equal projections, every minBlockSize (including 0 and negative values)", "why_tests_cant": "the sort order and recursion shape range over an unbounded family; a test fixes one geometry and one standard-library sort", "anchors": ["lib/hmat/cluster_tree_impl.hpp: ClusterTree<2>::splitClusterTreeByGeometry", "lib/hmat/dof_permutation_impl.hpp: DofPermutation"]}
{"id": "C02", "title": "Cluster ranges tile the dof range at every level", "statement": "The root of a cluster tree has index range [0,n). Every inner node has exactly two non-empty children whose index ranges are consecutive and together are the parent's range; the leaves read from left to right tile [0,n).", "quantifier": "every geometry, minBlockSize and sort outcome, every node of the tree", "why_tests_cant": "a structural invariant over all recursion trees", "anchors": ["lib/hmat/cluster_tree_impl.hpp: splitClusterTreeByGeometry", "lib/hmat/cluster_tree.hpp: ClusterTreeNodeData"]}
{"id": "C03", "title": "Cluster leaves respect minBlockSize and the tree is balanced", "statement": "If minBlockSize >= 1 every leaf of the cluster tree has at most minBlockSize dofs, every node that is split has more than minBlockSize dofs, the sizes of two siblings differ by at most one, and the construction terminates with depth at most ceil(log2 n).", "quantifier": "every geometry, every minBlockSize, every node", "why_tests_cant": "termination and depth are claims about all recursions", "anchors": ["lib/hmat/cluster_tree_impl.hpp: splitClusterTreeByGeometry (lines 157-256)"]}
{"id": "C04", "title": "A cluster's geometric data describe exactly the dofs in its range", "statement": "For every node of the cluster tree, the bounding box stored in the node is the bounding box of exactly those original dofs whose H-matrix index lies in the node's index range; hence it contains the bounding box of each of them and is contained in the parent's box.", "quantifier": "every node, every geometry and sort outcome", "why_tests_cant": "relates the recursion's point sets to the final permutation for all inputs", "anchors": ["lib/hmat/cluster_tree_impl.hpp: geometryData, splitClusterTreeByGeometry"]}
{"id": "C05", "title": "Block-cluster-tree leaves tile the matrix exactly once", "statement": "For any two cluster trees, any admissibility function and any maxBlockSize, every pair (row dof, column dof) lies in exactly one leaf block of the block cluster tree.", "quantifier": "every pair of cluster trees, every admissibility predicate, every maxBlockSize, every matrix entry", "why_tests_cant": "exact cover for unboundedly many partitions", "anchors": ["lib/hmat/block_cluster_tree_impl.hpp: initializeBlockClusterTree"]}
{"id": "C06", "title": "Admissible leaf blocks respect maxBlockSize", "statement": "Every leaf block marked admissible has at most maxBlockSize rows and at most maxBlockSize columns (options.hmat.maxBlockSize: 'the maximum size of an admissible block').", "quantifier": "every pair of cluster trees, admissibility function and maxBlockSize", "why_tests_cant": "requires all trees; the violation only occurs when a cluster leaf is larger than maxBlockSize", "anchors": ["lib/hmat/block_cluster_tree_impl.hpp: lines 139-168", "lib/common/global_parameters.cpp"]}
{"id": "C07", "title": "Blocks marked admissible are geometrically separated", "statement": "If a leaf block is marked admissible then its clusters lie inside a pair of clusters for which the admissibility condition holds. With weak admissibility the block's own bounding boxes are at positive distance; with strong admissibility min(diam) < eta*dist holds for that enclosing pair and the block's own distance is at least that dist.", "quantifier": "every pair of geometries, every leaf block", "why_tests_cant": "the flag of a block is computed from its parent's clusters; correctness needs monotonicity of distance over the whole tree", "anchors": ["lib/hmat/block_cluster_tree_impl.hpp: StrongAdmissibility, WeakAdmissibility, initializeBlockClusterTree"]}
{"id": "C08", "title": "A block that satisfies the admissibility condition is not refined", "statement": "A leaf's admissible flag equals the value of the admissibility function on its own two clusters.", "quantifier": "every block cluster tree", "why_tests_cant": "needs all trees; the code evaluates the function on the parent clusters", "anchors": ["lib/hmat/block_cluster_tree_impl.hpp: lines 172-182"]}
{"id": "C09", "title": "leafNodes enumerates every leaf once, coarse levels first", "statement": "leafNodes() of a tree returns exactly the leaves, each once, ordered by non-decreasing depth, and its length equals numberOfLeafs().", "quantifier": "every tree (any shape, any missing children)", "why_tests_cant": "breadth-first traversal over unbounded trees", "anchors": ["lib/hmat/simple_tree_node_impl.hpp: leafNodes, numberOfLeafs"]}
{"id": "C10", "title": "Bounding-box distance is a sound lower bound", "statement": "distance of two boxes is symmetric, zero when the boxes share a point, positive when they are disjoint, and its square never exceeds the squared Euclidean distance of any point of one box to any point of the other (and is attained).", "quantifier": "all boxes and all pairs of points", "why_tests_cant": "a universally quantified geometric inequality", "anchors": ["lib/hmat/bounding_box_impl.hpp: distance"]}
{"id": "C11", "title": "H-matrix apply computes beta*Y + alpha*op(M)*X", "statement": "apply(X,Y,trans,alpha,beta) of an initialised H-matrix returns beta*Y + alpha*op(M)*X in original dof ordering, where M is the matrix with M(i,j) the entry of the (unique) leaf block that contains the permuted indices, for the four transposition modes; beta = 0 ignores the previous contents of Y.", "quantifier": "every block partition, every block content (dense or low rank), every X, Y, alpha, beta and mode", "why_tests_cant": "linear-algebra identity over all partitions and data", "anchors": ["lib/hmat/hmatrix_impl.hpp: apply", "lib/hmat/hmatrix_dense_data_impl.hpp: apply", "lib/hmat/hmatrix_low_rank_data_impl.hpp: apply"]}
{"id": "C12", "title": "H-matrix apply does not depend on the thread schedule", "statement": "The leaf contributions are accumulated row by row under per-row locks by concurrently running tasks; every interleaving of the row updates of all leaves gives the same result.", "quantifier": "every schedule of the row updates of every number of tasks", "why_tests_cant": "tests see a handful of schedules", "anchors": ["lib/hmat/hmatrix_impl.hpp: apply lines 242-279"]}
{"id": "C13", "title": "H-matrix apply does not depend on the number of MPI processes", "statement": "Leaves are dealt round robin so that each leaf belongs to exactly one rank; the all-reduced result of apply is the same on every rank and equals the single-process result.", "quantifier": "every number of processes >= 1, every leaf list", "why_tests_cant": "arbitrary process counts and partitions", "anchors": ["lib/hmat/hmatrix_impl.hpp: initialize lines 109-110, apply lines 212-216, 286-292"]}
{"id": "C14", "title": "Re-initialising an H-matrix replaces its contents", "statement": "Calling initialize again on an H-matrix makes it behave as if it had been freshly constructed with the new compressor; reset() leaves an uninitialised matrix.", "quantifier": "every history of initialize/reset/apply calls", "why_tests_cant": "property of all call histories", "anchors": ["lib/hmat/hmatrix_impl.hpp: initialize, reset"]}
{"id": "C15", "title": "Reordering to H-matrix dofs and back is the identity", "statement": "permuteMatToOriginalDofs(permuteMatToHMatDofs(X)) = X and vice versa, for the row and for the column ordering.", "quantifier": "every cluster tree and every matrix with the right number of rows", "why_tests_cant": "all permutations", "anchors": ["lib/hmat/hmatrix_impl.hpp: permuteMatToHMatDofs, permuteMatToOriginalDofs"]}
{"id": "C16", "title": "Low-rank blocks behave as the matrix A*B", "statement": "apply of a low-rank block with factors A, B equals apply of a dense block holding A*B for every transposition mode, alpha and beta; its Frobenius norm equals that of A*B; rank 0 acts as the zero block.", "quantifier": "all factors, sizes (including rank 0), vectors, scalars, modes", "why_tests_cant": "algebraic identity over all data", "anchors": ["lib/hmat/hmatrix_low_rank_data_impl.hpp"]}
{"id": "C17", "title": "Blocks beyond the cutoff distance are dropped", "statement": "When an admissible block's cluster distance exceeds options.hmat.cutoff, the compressor stores a zero block and does not evaluate matrix entries.", "quantifier": "every admissible block and cutoff", "why_tests_cant": "requires every block; the code unconditionally falls through to the compression", "anchors": ["lib/hmat/hmatrix_compressor_impl.hpp: compressBlock"]}
{"id": "C18", "title": "ACA terminates within the rank limit with consistent factors", "statement": "Compressing an admissible block by ACA terminates, produces factors A (rows x k) and B (k x cols) with k <= min(maxRank, rows, cols), calls the entry generator only for index ranges inside the block, and restarts at most twice.", "quantifier": "every block, every matrix data, eps, maxRank, volumes", "why_tests_cant": "termination and bounds over all data-dependent pivot paths", "anchors": ["lib/hmat/hmatrix_aca_compressor_impl.hpp: compressBlockImpl, aca, computeCross"]}
{"id": "C19", "title": "ACA interpolates the block on its crosses and never exceeds its rank", "statement": "In exact arithmetic, after each accepted cross the approximation A*B coincides with the block on every pivot row and column used so far, k never exceeds the rank of the block and A*B equals the block once k equals its rank.", "quantifier": "every block over any field, every pivot sequence", "why_tests_cant": "invariant along all pivot paths", "anchors": ["lib/hmat/hmatrix_aca_compressor_impl.hpp: computeCross, updateLowRankBlocksAndNorm"]}
{"id": "C20", "title": "ACA norm update is the Frobenius norm of the approximation", "statement": "The block norm that the stopping test uses equals the Frobenius norm of the current A*B (squared, in exact arithmetic) after every update.", "quantifier": "every sequence of updates over the reals/complexes", "why_tests_cant": "algebraic invariant along all iterations", "anchors": ["lib/hmat/hmatrix_aca_compressor_impl.hpp: updateLowRankBlocksAndNorm"]}
{"id": "C21", "title": "H-matrix Frobenius norm", "statement": "frobeniusNorm() of an H-matrix is the Frobenius norm of the matrix it represents, on every number of processes.", "quantifier": "every partition, every block data, every process count", "why_tests_cant": "all partitions; with several processes remote leaves are not stored", "anchors": ["lib/hmat/hmatrix_impl.hpp: frobeniusNorm_impl"]}
{"id": "C22", "title": "H-matrix block generation agrees with dense assembly", "statement": "For given values of the local integrals, the block of weak-form entries computed for a row range and a column range of H-matrix indices equals the corresponding (permuted) sub-block of the densely assembled matrix, whichever of the four evaluation strategies (single column, single row, small block, large block) is selected by the block's size.", "quantifier": "every space pair, dof permutation, pair of ranges and local integral values", "why_tests_cant": "four code paths times all ranges and dof maps", "anchors": ["lib/assembly/weak_form_hmat_assembly_helper.cpp: computeMatrixBlock", "lib/assembly/local_dof_lists_cache.cpp", "lib/assembly/dense_global_assembler.cpp"]}
{"id": "C23", "title": "Morton codes round-trip", "statement": "For coordinates in 0..1023 morton and deMorton are inverse to each other, different cells have different codes, and coordinates above 1023 are rejected with an exception.", "quantifier": "all coordinate triples (the whole 32-bit input domain)", "why_tests_cant": "2^30 codes per call pair", "anchors": ["lib/fmm/octree_impl.hpp: dilate3, contract3, morton, deMorton"]}
{"id": "C24", "title": "Octree parents and children are consistent with geometry", "statement": "The parent of a cell is the cell whose coordinates are halved; firstChild..lastChild enumerate exactly the eight cells whose parent is the given cell.", "quantifier": "all cells at all levels up to 10", "why_tests_cant": "all cells", "anchors": ["lib/fmm/octree_impl.hpp: getParent, getFirstChild, getLastChild"]}
{"id": "C25", "title": "Octree neighbour lists", "statement": "getNeighbors of a cell returns exactly the cells of the same level, other than the cell itself, whose coordinates differ by at most one in each direction and lie in the grid; no cell appears twice and the relation is symmetric.", "quantifier": "every level and every cell", "why_tests_cant": "all cells and boundary configurations", "anchors": ["lib/fmm/octree_impl.hpp: getNeighbors"]}
{"id": "C26", "title": "Near field plus interaction lists cover every pair of leaves exactly once", "statement": "For two non-empty leaf cells, either they are neighbours or equal, or there is exactly one level at which the ancestor of one is in the interaction list of the ancestor of the other.", "quantifier": "every pair of leaves, every tree depth, every set of non-empty leaves", "why_tests_cant": "a combinatorial identity over all trees", "anchors": ["lib/fmm/octree_impl.hpp: getNeighbors, interaction list construction", "lib/fmm/octree_impl.hpp: constructor"]}
{"id": "C27", "title": "The octree knows which cells are non-empty", "statement": "isEmpty(node, level) is false exactly for the cells that are ancestors (at that level) of a leaf containing a dof.", "quantifier": "every geometry, every level, every cell", "why_tests_cant": "all point sets", "anchors": ["lib/fmm/octree_impl.hpp: Octree constructor, isEmpty"]}
{"id": "C28", "title": "Points are assigned to the octree cell that contains them", "statement": "getLeafContainingPoint returns the Morton code of the cell whose half-open cube contains the point (points on the upper boundary go to the last cell).", "quantifier": "every point of the bounding box and every level", "why_tests_cant": "continuum of points", "anchors": ["lib/fmm/octree_impl.hpp: getLeafContainingPoint, cubeBounds"]}
{"id": "C29", "title": "Grid-segment set algebra", "statement": "For segments of the same grid: contains(codim,i) of the union / intersection / difference / complement is the Boolean or / and / and-not / not of the contains of the operands, for every index i of the grid and every codimension.", "quantifier": "all segments given by arbitrary sets of excluded entity indices (non-negative), and all expressions built from them; all entity indices", "why_tests_cant": "all subsets of unbounded grids", "anchors": ["lib/grid/grid_segment.cpp: complement, union_, intersection, difference, contains"]}
{"id": "C30", "title": "Open and closed domain segments", "statement": "The closed segment of a domain index contains an element iff it has that domain index and a lower-dimensional entity iff it belongs to such an element; the open segment additionally drops the boundary of the domain: entities that also belong to an element outside the domain, facets that belong to exactly one element of the domain, and the entities on such facets.", "quantifier": "every grid topology and domain labelling", "why_tests_cant": "all topologies; neighbour counts are kept in 8-bit counters", "anchors": ["lib/grid/grid_segment.cpp: openDomain, closedDomain"]}
{"id": "C31", "title": "Grid edge construction", "statement": "Initialising a triangular grid from elements creates exactly one edge per unordered pair of vertices that are joined in some triangle; element-to-edge, edge-to-element, node-to-element and node-to-edge tables are mutually consistent.", "quantifier": "every connectivity list of triangles with valid distinct vertex indices", "why_tests_cant": "all meshes, including non-manifold ones", "anchors": ["lib/grid/bempp_grid/triangle_imp/bempp_grid_data_container_impl.hpp: init"]}
{"id": "C32", "title": "Entity ids are unique", "statement": "All vertices, edges and elements of a grid have pairwise different ids and entity indices are contiguous from 0.", "quantifier": "every mesh", "why_tests_cant": "all meshes", "anchors": ["lib/grid/bempp_grid/triangle_imp/bempp_grid_data_container_impl.hpp: init"]}
{"id": "C33", "title": "Grid import validates connectivity", "statement": "createGridFromConnectivityArrays either throws (vertex index out of range or wrong number of domain indices) or produces a grid whose vertices, elements and domain indices are exactly the arrays, in insertion order.", "quantifier": "all input arrays", "why_tests_cant": "all arrays, including malformed ones", "anchors": ["lib/grid/grid_factory.cpp: createGridFromConnectivityArrays"]}
{"id": "C34", "title": "Barycentric refinement", "statement": "The barycentric refinement of a triangular grid has six sons per element whose areas and orientations match the father, inherits the domain index, numbers vertices as (old vertices, edge midpoints, centroids), is conforming across shared edges, and the son map lists for element e exactly the elements created from e.", "quantifier": "every triangular grid", "why_tests_cant": "all meshes", "anchors": ["lib/grid/concrete_grid.hpp: barycentricGridSonPair"]}
{"id": "C35", "title": "Concurrent access to the barycentric grid", "statement": "Whenever barycentricGrid/barycentricGridSonPair returns, the grid and its complete son map are available, for any number of threads calling it for the first time concurrently.", "quantifier": "every interleaving of any number of threads", "why_tests_cant": "race windows are not reachable by tests reliably", "anchors": ["lib/grid/concrete_grid.hpp: barycentricGridSonPair (double-checked locking)"]}
{"id": "C36", "title": "Lazy initialisation runs once", "statement": "Lazy<T>::get initialises its value exactly once and all callers receive the same fully initialised object.", "quantifier": "every interleaving of any number of threads", "why_tests_cant": "interleavings", "anchors": ["lib/common/lazy.hpp: Lazy::get"]}
{"id": "C37", "title": "Point-inside-grid test", "statement": "areInside(grid, points) reports a point as inside iff a ray from the point crosses the surface an odd number of times.", "quantifier": "every closed surface and every point in general position", "why_tests_cant": "all surfaces", "anchors": ["lib/grid/grid.cpp: areInside", "lib/grid/ray_triangle_intersection.cpp: zRayIntersectsTriangle"]}
{"id": "C38", "title": "Structured grid factory", "statement": "createStructuredGrid in 2D with nx x ny cells produces (nx+1)(ny+1) vertices and 2 nx ny triangles with valid vertex indices, consistent orientation, covering every cell by exactly two triangles.", "quantifier": "all sizes", "why_tests_cant": "all sizes", "anchors": ["lib/grid/structured_grid_factory.hpp"]}
{"id": "C39", "title": "Continuous piecewise-linear dof maps", "statement": "For the continuous P1 space, local-to-global and global-to-local dof maps are inverse relations: (element, corner) appears in the list of global dof g iff its global dof is g; global dofs are numbered 0..N-1 in vertex order, one for each vertex that is included; flat local dofs enumerate each used (element, corner) once.", "quantifier": "every mesh, every segment, both strictlyOnSegment modes", "why_tests_cant": "all meshes and subsets", "anchors": ["lib/space/piecewise_linear_continuous_scalar_space.cpp: assignDofsImpl"]}
{"id": "C40", "title": "Piecewise-constant dof maps on segments", "statement": "The P0 space has one global dof per element of the segment; globalDofCount and flatLocalDofCount agree with the number of dofs, so the sparse global-to-flat-local mapping can be built.", "quantifier": "every mesh and every segment", "why_tests_cant": "all subsets", "anchors": ["lib/space/piecewise_constant_scalar_space.cpp"]}
{"id": "C41", "title": "Global-to-flat-local mapping", "statement": "The sparse matrix mapping global dofs to flat local dofs has exactly one 1 in the row of each flat local dof, located in the column of the global dof that owns it, and it throws if spaces do not match.", "quantifier": "every space", "why_tests_cant": "all spaces", "anchors": ["lib/space/space.cpp: constructGlobalToFlatLocalDofsMappingVectors"]}
{"id": "C42", "title": "Discontinuous companion space matches", "statement": "The discontinuous space of a continuous P1 space has one dof per flat local dof of the continuous space, in the same order.", "quantifier": "every mesh, every segment, both strictness modes", "why_tests_cant": "all subsets", "anchors": ["lib/space/piecewise_linear_discontinuous_scalar_space.cpp: assignDofsImpl", "lib/space/piecewise_linear_continuous_scalar_space.cpp: discontinuousSpace"]}
{"id": "C43", "title": "RWG dofs and signs", "statement": "Each RWG global dof belongs to one edge of the segment with at least two neighbouring elements (or a boundary edge when allowed); it is shared by at most two elements, with opposite signs on the two sides and weight magnitude equal to the edge length.", "quantifier": "every mesh, every segment, every option combination", "why_tests_cant": "all meshes, including boundaries and junctions", "anchors": ["lib/space/rwg_vector_space.cpp: assignDofsImpl"]}
{"id": "C44", "title": "Polynomial continuous spaces number all local dofs", "statement": "For the continuous space of order p on triangles, the local dof indices assigned to vertices, edges and the interior of an element are disjoint and together are exactly 0..(p+1)(p+2)/2-1, and neighbouring elements use opposite traversal of a shared edge so that the same global dof is attached to the same point.", "quantifier": "every p >= 1 and every mesh", "why_tests_cant": "all orders", "anchors": ["lib/space/piecewise_polynomial_continuous_scalar_space.cpp: assignDofsImpl"]}
{"id": "C45", "title": "Dense assembly is the weighted sum over element pairs, independent of schedule", "statement": "The densely assembled weak form has entry (i,j) equal to the sum over all (test element, local dof) mapped to i and (trial element, local dof) mapped to j of conj(test weight)*trial weight*local integral, regardless of how trial elements are distributed over threads; local dofs mapped to negative global dofs do not contribute.", "quantifier": "every space pair, every local integral data, every schedule", "why_tests_cant": "all meshes and schedules", "anchors": ["lib/assembly/dense_global_assembler.cpp"]}
{"id": "C46", "title": "Dense sub-block assembly equals the sub-block of the full matrix", "statement": "assembleDenseBlock(rowStart,rowEnd,colStart,colEnd) either throws because the ranges are out of bounds or returns exactly rows rowStart..rowEnd-1 and columns colStart..colEnd-1 of the densely assembled matrix.", "quantifier": "every space pair and every pair of integer ranges with start <= end (a range with end < start is not rejected and gives a matrix of negative size)", "why_tests_cant": "all ranges", "anchors": ["lib/assembly/dense_global_block_assembler.cpp: assembleDenseBlock, gatherElementInformation"]}
{"id": "C47", "title": "Sparse local-operator assembly agrees with dense assembly", "statement": "The sparse matrix assembled for a local (identity-like) operator has the same entries as its dense assembly.", "quantifier": "every pair of spaces on one grid and every local data, real or complex", "why_tests_cant": "all data; imaginary parts are discarded in sparse mode", "anchors": ["lib/assembly/elementary_local_operator.cpp"]}
{"id": "C48", "title": "Sparse operators apply in all transposition modes", "statement": "A DiscreteSparseBoundaryOperator constructed with mode t, applied with mode s, computes beta*y + alpha*op_s(op_t(A))*x, and its reported row/column counts match.", "quantifier": "every matrix, x, y, alpha, beta, every pair of modes", "why_tests_cant": "all mode combinations and data", "anchors": ["lib/assembly/discrete_sparse_boundary_operator.cpp: applyBuiltInImpl, isTransposed", "lib/assembly/transposition_mode.hpp"]}
{"id": "C49", "title": "Dof-list cache is transparent", "statement": "LocalDofListsCache::get(start,count) and ComponentListsCache::get return the same lists as an uncached computation, after any history of calls by any number of threads.", "quantifier": "every call history and interleaving", "why_tests_cant": "histories and interleavings", "anchors": ["lib/assembly/local_dof_lists_cache.cpp", "lib/assembly/component_lists_cache.cpp"]}
{"id": "C50", "title": "Weak-form cache returns live, matching operators", "statement": "getWeakForm returns a non-null weak form for the requested operator: the cached one if one is alive for an equal id, otherwise a newly assembled one; aliveOperators() lists exactly the weak forms that are still alive.", "quantifier": "every history of requests and releases, every interleaving", "why_tests_cant": "histories and interleavings", "anchors": ["lib/assembly/discrete_boundary_operator_cache.cpp"]}
{"id": "C51", "title": "asMatrix recovers the operator", "statement": "asMatrix() of a discrete operator is the matrix whose j-th column is the operator applied to the j-th unit vector, so apply(x) = asMatrix()*x for every x; apply on matrices checks dimensions and throws on mismatch.", "quantifier": "every linear operator and all inputs", "why_tests_cant": "all operators", "anchors": ["lib/assembly/discrete_boundary_operator.cpp: asMatrix, apply"]}
{"id": "C52", "title": "H-matrix with the dense compressor is the dense matrix", "statement": "An operator assembled in H-matrix mode with compression 'dense' acts exactly as the densely assembled operator.", "quantifier": "every pair of spaces, every cluster parameters, X, Y, alpha, beta, mode", "why_tests_cant": "end-to-end composition of C01, C05, C11 and C22 for all inputs", "anchors": ["lib/assembly/hmat_global_assembler.cpp: assembleDetachedWeakForm", "lib/hmat/hmatrix_dense_compressor_impl.hpp"]}
{"id": "C53", "title": "Potential operators in H-matrix mode address existing data", "statement": "Assembling a potential operator with several components per point in H-matrix mode reads only valid dof-volume entries and its blocks equal the blocks of the dense potential operator.", "quantifier": "every number of points, components and every block", "why_tests_cant": "all sizes; out-of-bounds reads need not crash a test", "anchors": ["lib/assembly/potential_operator_hmat_assembly_helper.cpp: dofVolumes, computeMatrixBlock", "lib/assembly/component_lists_cache.cpp"]}
{"id": "C54", "title": "Bounding boxes can be merged from an empty box", "statement": "Merging boxes into a default-constructed bounding box yields the bounding box of the merged boxes.", "quantifier": "every list of boxes", "why_tests_cant": "all coordinates, notably negative ones", "anchors": ["lib/hmat/bounding_box_impl.hpp: default constructor, merge"]}
{"id": "C55", "title": "Octree leaves list their elements", "statement": "After construction, getLeafCubeEntities of a leaf returns exactly the elements whose centroid lies in that leaf, each once, in iteration order.", "quantifier": "every grid and every leaf", "why_tests_cant": "all element distributions over leaves", "anchors": ["lib/fmm/octree_impl.hpp: Octree constructor, getLeafCubeEntities"]}
{"id": "C56", "title": "Extended octree cubes contain their elements", "statement": "Every corner of an element lies in the extended cube (extendedCubeBounds) of the leaf that contains the element's centroid.", "quantifier": "every grid of non-degenerate triangles and every level", "why_tests_cant": "all triangle shapes and positions", "anchors": ["lib/fmm/octree_impl.hpp: extendedCubeBounds", "lib/grid/concrete_grid_view.hpp: maximumElementDiameter"]}
{"id": "C57", "title": "Positive-x segment", "statement": "gridSegmentWithPositiveX(grid, level) contains exactly the entities of the requested level (or leaf) view whose center has positive x coordinate.", "quantifier": "every grid, every level, every entity", "why_tests_cant": "ranges over all refinement states; the level-0 tests cannot see that the counts come from another view", "anchors": ["lib/grid/grid_segment.cpp: gridSegmentWithPositiveX, GridSegment constructor"]}
{"id": "C58", "title": "Marking excluded entities", "statement": "markExcludedEntities(codim, marks, mark) returns a vector with one entry per entity: mark exactly for the entities not contained in the segment, 0 otherwise.", "quantifier": "every segment, codimension and mark", "why_tests_cant": "must hold for every set of excluded entities", "anchors": ["lib/grid/grid_segment.cpp: markExcludedEntities"]}
{"id": "C59", "title": "Sub-entity consistency of the triangular grid", "statement": "The grid view of a triangular grid in which every vertex is used has contiguous unique entity indices and in-range sub-entity indices, every edge and vertex belongs to some element, and the two vertices that the reference element assigns to facet k of an element are the end points of the edge entity reported as facet k.", "quantifier": "every connectivity list of proper triangles", "why_tests_cant": "all meshes", "anchors": ["lib/grid/bempp_grid/triangle_imp/bempp_grid_index_set.hpp: subIndex", "lib/grid/bempp_grid/triangle_imp/bempp_grid_entity_imp.hpp: subEntity"]}
{"id": "C60", "title": "The H-matrix built by the ACA compressor", "statement": "Building an H-matrix with the ACA compressor stores every inadmissible leaf block exactly and every admissible leaf block with rank at most maxRank, and apply multiplies by the matrix whose leaf blocks are those: it differs from the true matrix only inside admissible leaves, and not at all where the crosses exhaust the rank of the block.", "quantifier": "every tree, every matrix, every maxRank, every vector, coefficient and transposition mode", "why_tests_cant": "all matrices, all block cluster trees and all pivoting histories", "anchors": ["lib/hmat/hmatrix_aca_compressor_impl.hpp: compressBlock", "lib/hmat/hmatrix_impl.hpp: initialize, apply"]}
{"id": "C61", "title": "Singular quadrature covers every pair of points once", "statement": "The quadrature points and weights generated for a pair of triangles that coincide, share an edge or share a vertex form a rule for the integral over all pairs of points of the two reference triangles: the regions tile the pairs, the weights are the Jacobians, all points lie in the triangles and all weights are positive, whichever local vertices are shared; the rule is exact for polynomials whose degree the underlying Gauss rule allows for, and the integrands it samples stay bounded for kernels that grow like the inverse distance.", "quantifier": "every configuration and choice of shared local vertices, every integrable function, every basic rule, every pair of flat triangles placed accordingly", "why_tests_cant": "identity of four-dimensional integrals for every integrable function and every geometry", "anchors": ["lib/fiber/quadrature/galerkinduffy.hpp: GalerkinDuffyExpression::transform", "lib/fiber/numerical_quadrature.cpp: reallyFillPointsAndWeightsSingular, remapPointsSharedVertexTriangle, remapPointsSharedEdgeTriangle"]}
{"id": "C62", "title": "Classification of pairs of elements", "statement": "For two triangles of one grid, the pair is treated as disjoint, sharing a vertex, sharing an edge or coincident according to whether they have zero, one, two or three corners in common; the local vertices handed to the singular quadrature rule are corners at the same position; an element paired with itself is coincident; no exception is thrown.", "quantifier": "every pair of corner lists with distinct corners", "why_tests_cant": "all numberings and all orderings of local vertices", "anchors": ["lib/fiber/element_pair_topology.hpp: determineElementPairTopologyIn3D"]}
{"id": "C63", "title": "Choice of the quadrature order", "statement": "After setting accuracy options with distinct distance thresholds in any order, every normalised distance is served with the order of the smallest threshold not below it, and with the last order beyond all thresholds; a wrong number of orders is refused. A rule is chosen for every pair of triangles: pairs with a common corner get a singular rule whose order does not depend on the nominal distance, other pairs (and all pairs on two different grids) a regular rule of the order set for the distance of their centers relative to the larger element, or for the nominal distance relative to the average element size; the choice is symmetric and independent of the unit of length.", "quantifier": "every list of thresholds and orders, every distance, every grid of triangles and every pair of elements", "why_tests_cant": "all real distances, thresholds and geometries", "anchors": ["lib/fiber/accuracy_options.cpp", "lib/fiber/quadrature_options.hpp", "lib/fiber/default_quadrature_descriptor_selector_for_integral_operators.cpp", "lib/fiber/default_local_assembler_for_operators_on_surfaces_utilities.cpp"]}
{"id": "C64", "title": "Local assembler returns the integrals of each pair", "statement": "Every form of evaluateLocalWeakForms (several elements with one, with all or one local function; several with several; one pair; a list of pairs) returns for each pair of elements the matrix of integrals computed with the quadrature rule chosen for that pair, or the requested row or column of it, whether or not singular integrals were cached at construction, in whatever order groups of pairs are processed and whatever the result array contained before; the cache answers exactly for pairs with a common corner; lists of different lengths are refused.", "quantifier": "every grid of triangles (or pair of grids), every list of elements, every local function, every nominal distance, every order of processing", "why_tests_cant": "all meshes, all element lists and all thread schedules", "anchors": ["lib/fiber/default_local_assembler_for_integral_operators_on_surfaces_imp.hpp: evaluateLocalWeakForms, findPairsOfAdjacentElements, cacheLocalWeakForms"]}
{"id": "C65", "title": "Integrators are created once and shared", "statement": "Concurrent calls that ask for the integrator of the same quadrature rule all get the same one, made for that rule; calls for different rules get different ones; at most one is ever made per rule, none is deleted while in use, none is leaked, and no call waits forever for another.", "quantifier": "every number of threads, every sequence of requested rules, every interleaving", "why_tests_cant": "depends on the thread schedule", "anchors": ["lib/fiber/default_local_assembler_for_integral_operators_on_surfaces_imp.hpp: getIntegrator", "lib/fiber/double_quadrature_descriptor.hpp"]}
{"id": "C66", "title": "Local matrices are the quadrature sums", "statement": "For an integrand that is a sum over transformations of conj(test) . kernel . trial, the local matrix computed from values at quadrature points is the quadrature sum with the integration elements and weights of the points: for lists of pairs of points and for tensor products of test and trial points, for one kernel per transformation or one for all, for real and complex numbers, whichever side has more functions; the specialised and the general implementations give the same numbers and never use uninitialised memory.", "quantifier": "every number of transformations, components, functions and points, all values", "why_tests_cant": "all array extents and all values; depends on what memory held before", "anchors": ["lib/fiber/typical_test_scalar_kernel_trial_integral.cpp", "lib/fiber/default_test_kernel_trial_integral_imp.hpp", "lib/fiber/test_scalar_kernel_trial_integrand_functor.hpp"]}
{"id": "C67", "title": "Integrators treat each pair of elements on its own", "statement": "An integrator returns for each element or pair in a call the matrix of integrals over that pair (or the row or column of the requested function), independently of the other elements of the call, of what earlier calls left in thread-local storage, of what the result matrices held, of whether geometrical data are precomputed and of other threads filling the cache of basis data; the entries are the quadrature sums of C66. Lists of results of the wrong length are refused.", "quantifier": "every list of elements or pairs, every history of calls on a thread, every interleaving with other threads, every kernel and transformation that uses the geometrical data it declares", "why_tests_cant": "all histories of calls and all interleavings", "anchors": ["lib/fiber/separable_numerical_test_kernel_trial_integrator_imp.hpp: integrateCpu, precalculateGeometricalData", "lib/fiber/nonseparable_numerical_test_kernel_trial_integrator_imp.hpp: integrate, basisData", "lib/grid/concrete_geometry.hpp: getDataImpl"]}
{"id": "C68", "title": "Barycentric P0 and P1 spaces span the coarse functions", "statement": "The barycentric versions of the piecewise constant and of the continuous and discontinuous piecewise linear spaces have as many global dofs as the coarse spaces, their maps between local and global dofs are consistent, and for any vector of coefficients the function they describe has at every point of every son element the value of the coarse function with the same coefficients at that point.", "quantifier": "every valid triangular grid, every vector of coefficients, every element, son and point", "why_tests_cant": "all meshes, all coefficients and all points", "anchors": ["lib/space/piecewise_linear_continuous_scalar_space_barycentric.cpp", "lib/space/piecewise_linear_discontinuous_scalar_space_barycentric.cpp", "lib/space/piecewise_constant_scalar_space_barycentric.cpp", "lib/fiber/linear_scalar_shapeset_barycentric.hpp"]}
{"id": "C70", "title": "Piecewise constants on the dual grid", "statement": "The space of piecewise constants on dual cells has one global dof per vertex of the coarse grid; every element of the refined grid belongs to the dual cell of the one coarse vertex among its corners, and each coarse element contributes exactly two of its six sons to the cell of each of its corners; the dof maps are consistent.", "quantifier": "every valid triangular grid, every element of the refined grid", "why_tests_cant": "all meshes", "anchors": ["lib/space/piecewise_constant_dual_grid_scalar_space.cpp: assignDofsImpl"]}
{"id": "C69", "title": "Barycentric vector spaces span the coarse functions", "statement": "The barycentric versions of the RWG, Raviart-Thomas, Nedelec and scaled Nedelec spaces have as many global dofs as the coarse spaces, consistent dof maps, and for any vector of coefficients the vector field they describe, its surface divergence (or surface curl) included, agrees at every point of every son element with the coarse field with the same coefficients.", "quantifier": "every valid triangular grid, every vector of coefficients, every element, son and point", "why_tests_cant": "all meshes, all coefficients and all points", "anchors": ["lib/space/rwg_vector_space_barycentric.cpp", "lib/space/raviart_thomas_0_vector_space_barycentric.cpp", "lib/space/nedelec_0_vector_space_barycentric.cpp", "lib/space/scaled_nedelec_0_vector_space_barycentric.cpp", "lib/fiber/raviart_thomas_0_shapeset_barycentric.hpp", "lib/fiber/nedelec_0_shapeset_barycentric.hpp"]}
{"id": "C71", "title": "Shape transformations are the surface differential operators", "statement": "On every non-degenerate triangle in space, the transformations of basis values and derivatives to physical quantities are what their names say: the surface gradient is the tangential field whose products with the edge displacements are the reference derivatives, H(curl) values are covariant, H(div) values contravariant (flux through a displacement), surface divergence and curls are the corresponding derivatives, and each transformation reads only the geometrical data and basis data it asks for.", "quantifier": "every non-degenerate triangle in space, every basis value and derivative", "why_tests_cant": "all geometries and all basis values", "anchors": ["lib/fiber/surface_grad_3d_functor.hpp", "lib/fiber/hdiv_function_value_functor.hpp", "lib/fiber/hcurl_function_value_functor.hpp", "lib/fiber/surface_div_3d_functor.hpp", "lib/fiber/surface_curl_3d_functor.hpp", "lib/fiber/hcurl_surface_curl_functor.hpp", "lib/grid/concrete_geometry.hpp"]}
{"id": "C72", "title": "Conformity of the lowest-order vector spaces", "statement": "A function of the RWG or Raviart-Thomas space has continuous normal components: at every edge with exactly two neighbours, both in or both out of the segment, the fluxes out of the two triangles cancel at every point of the edge, and no flux leaves through a boundary edge unless dofs are put on boundaries. The coefficient of an RWG function is its flux per unit length out of the lower-numbered neighbour of the dof's edge. Functions of the Nedelec and scaled Nedelec spaces have equal tangential components from the two triangles of an edge if these are consistently oriented, and opposite ones otherwise.", "quantifier": "every grid of triangles in space without degenerate elements, every segment, every vector of coefficients, every edge and every point of it", "why_tests_cant": "all meshes, coefficients and points", "anchors": ["lib/space/rwg_vector_space.cpp", "lib/space/raviart_thomas_0_vector_space.cpp", "lib/space/nedelec_0_vector_space.cpp", "lib/space/scaled_nedelec_0_vector_space.cpp", "lib/fiber/raviart_thomas_0_shapeset.hpp", "lib/fiber/hdiv_function_value_functor.hpp", "lib/fiber/hcurl_function_value_functor.hpp"]}
{"id": "C73", "title": "Kernels are the fundamental solution and its derivatives", "statement": "For all distinct points and all complex wave numbers: the single-layer kernel is exp(-k r)/(4 pi r) and symmetric; the double-layer kernel is its derivative in the trial normal, the adjoint kernel that in the test normal, and the two are each other with points exchanged; the off-diagonal hypersingular kernel is minus the test-normal derivative of the double-layer kernel; gradient and Maxwell kernels are gradients in the test point; the fundamental solution satisfies the modified Helmholtz equation; Laplace kernels are those of wave number 0; far-field kernels are the limits of r exp(k r) times the kernels of the potentials. Each functor writes what it declares and reads normals only when it asks for them.", "quantifier": "all pairs of distinct points, all normals, all wave numbers, all directions", "why_tests_cant": "derivatives and limits at every point of a continuum", "anchors": ["lib/fiber/laplace_3d_single_layer_potential_kernel_functor.hpp", "lib/fiber/laplace_3d_double_layer_potential_kernel_functor.hpp", "lib/fiber/laplace_3d_adjoint_double_layer_potential_kernel_functor.hpp", "lib/fiber/laplace_3d_hypersingular_off_diagonal_kernel_functor.hpp", "lib/fiber/laplace_3d_single_layer_gradient_potential_kernel_functor.hpp", "lib/fiber/laplace_3d_double_layer_gradient_potential_kernel_functor.hpp", "lib/fiber/modified_helmholtz_3d_single_layer_potential_kernel_functor.hpp", "lib/fiber/modified_helmholtz_3d_double_layer_potential_kernel_functor.hpp", "lib/fiber/modified_helmholtz_3d_adjoint_double_layer_potential_kernel_functor.hpp", "lib/fiber/modified_helmholtz_3d_hypersingular_off_diagonal_kernel_functor.hpp", "lib/fiber/modified_maxwell_3d_single_layer_potential_operator_kernel_functor.hpp", "lib/fiber/modified_maxwell_3d_double_layer_operators_kernel_functor.hpp", "lib/fiber/modified_helmholtz_3d_far_field_single_layer_potential_kernel_functor.hpp"]}
{"id": "C74", "title": "Interpolated kernels approximate the exact ones", "statement": "An operator with kernel interpolation, on grids contained in their bounding boxes, evaluates at every pair of points only tabulated data, and every interpolated kernel agrees with the exact kernel up to a relative error of (4 pi/p)^4/384 exp(4 pi/p), where p is the number of points per wavelength. The interpolator is on every cell the cubic with the given values and derivatives at both ends. (At the end of its range it reads past the table, and ranges shorter than a cell, wave number 0 in particular, make the construction throw.)", "quantifier": "all boxes, wave numbers, numbers of points and pairs of points; all tables of values and derivatives", "why_tests_cant": "an error bound on a continuum of distances, for all wave numbers", "anchors": ["lib/fiber/hermite_interpolator.hpp", "lib/fiber/initialize_interpolator_for_modified_helmholtz_3d_kernels.cpp", "lib/fiber/modified_helmholtz_3d_single_layer_potential_kernel_interpolated_functor.hpp", "lib/fiber/modified_helmholtz_3d_double_layer_potential_kernel_interpolated_functor.hpp", "lib/fiber/modified_helmholtz_3d_hypersingular_kernel_interpolated_functor.hpp", "lib/fiber/modified_maxwell_3d_double_layer_operators_kernel_interpolated_functor.hpp", "lib/grid/max_distance.cpp", "lib/operators/modified_helmholtz_operators_imp.hpp"]}
{"id": "C75", "title": "Quadrature rules integrate polynomials", "statement": "The rule of order q on triangles, q up to 20, integrates every polynomial of degree at most q over the reference triangle up to 5e-15 times the sum of its coefficients' absolute values; the rule of order q on quadrangles, q up to 39, every polynomial of degree at most q in each variable over the unit square up to 5e-13 times that sum. Points lie in the triangle for all orders but 11, 15, 16, 18 and 20, weights are positive for all orders but 3, 7, 18 and 20. (Higher orders are out-of-bounds reads instead of the documented exception.)", "quantifier": "every order, every polynomial", "why_tests_cant": "a wrong digit anywhere in 11,000 table entries shows only for some polynomials, and all polynomials cannot be tried", "anchors": ["lib/fiber/quadrature/gausstria.hpp", "lib/fiber/quadrature/gausstensor.hpp", "lib/fiber/quadrature/quadrature.hpp", "lib/fiber/numerical_quadrature.cpp: fillSingleQuadraturePointsAndWeights"]}
{"id": "C76", "title": "Local operators are assembled exactly", "statement": "For every list of triangular elements (repetitions, mixed shapesets, any order of the internal set of variants) the local assembler of a local operator returns, position by position, the matrix of the element asked for, and its entries are the integrals of the integrand over that element up to 5e-15 relative to its coefficients whenever the shape functions are polynomials of the degree their shapesets declare and the orders add up to at most 20. In particular: mass matrices of P0 and P1 (area, area/3, area/6 and area/12), the Laplace-Beltrami matrix of P1, identity and Maxwell identity matrices of Raviart-Thomas functions; the identity is Hermitian positive, the Maxwell identity anti-Hermitian.", "quantifier": "every list of elements, every triangle of positive area, all polynomial shapesets, every order of the set of variants", "why_tests_cant": "all meshes, lists of elements and polynomials; the set is ordered by memory addresses", "anchors": ["lib/fiber/default_local_assembler_for_local_operators_on_surfaces_imp.hpp", "lib/fiber/numerical_test_trial_integrator_imp.hpp", "lib/fiber/default_test_trial_integral_imp.hpp", "lib/fiber/default_quadrature_descriptor_selector_for_local_operators.cpp", "lib/fiber/simple_test_trial_integrand_functor.hpp", "lib/fiber/maxwell_3d_test_trial_integrand_functor.hpp", "lib/operators/sparse_operators.hpp"]}
{"id": "C77", "title": "Projections of functions", "statement": "For every list of triangular elements (repetitions, mixed shapesets, any order of the internal set of variants) the projections of a function of position, unit normal and domain index on the test functions of each element are returned position by position; they are the integrals of test function times function over that element up to 5e-15 relative to the coefficients whenever the integrand is a polynomial of degree at most the accuracy order (by default twice the order of the shapeset plus one). A function with the wrong number of components is refused; projections are linear in the function; projecting a function of a scalar space is multiplying its coefficients by the mass matrix; the global vector of projections has for each global dof the weighted sum over its local dofs.", "quantifier": "every list of elements, every triangle of positive area, every function whose integrand is a polynomial, all accuracy options up to order 20, every order of the set of variants, every consistent space", "why_tests_cant": "all meshes, functions and lists of elements; the set is ordered by memory addresses", "anchors": ["lib/fiber/default_local_assembler_for_grid_functions_on_surfaces_imp.hpp", "lib/fiber/numerical_test_function_integrator_imp.hpp", "lib/fiber/default_quadrature_descriptor_selector_for_grid_functions.cpp", "lib/fiber/surface_normal_and_domain_index_dependent_function.hpp", "lib/fiber/surface_normal_dependent_function.hpp", "lib/fiber/surface_normal_independent_function.hpp", "lib/fiber/domain_index_dependent_function.hpp", "cython/bempp/core/assembly/function_projector.hpp: reallyCalculateProjections"]}
{"id": "C78", "title": "Functions defined in Python", "statement": "However the object that wraps a Python callable is copied, evaluated and destroyed, its arrays exist as long as one copy exists, are freed with the last one, and the callable ends with the references it had; the values at a point are those the callable computes there. (False if the callable raises an exception: one reference too many is released and the arrays are freed under the last copy. A component that the callable does not assign has the value of an earlier point.)", "quantifier": "all histories of copying, evaluating and destroying, all callables", "why_tests_cant": "all histories", "anchors": ["cython/bempp/core/assembly/function_projector.hpp: PythonFunctor"]}
{"id": "C79", "title": "Evaluation of potential operators on elements", "statement": "For every potential operator of the library, every list of points and triangular elements (with repetitions) and each of the three forms of the call (one element at many points, optionally one function; one point and many elements, optionally one component; many of both) each matrix returned holds the contributions of the element's functions to the components of the potential at the point: quadrature of the integrand with exactly the one rule that belongs to this point and element - its order is that requested for the distance from the centroid in units of the longest side, or for the nominal distance in units of the average longest side - whatever the order in which the sets of rules are traversed.", "quantifier": "all 14 operators, wave numbers, lists of points and elements, triangles of positive area, shapesets, accuracy options (orders up to 20), orders of the sets of integrators", "why_tests_cant": "all meshes, points and lists; the sets are ordered by memory addresses", "anchors": ["lib/fiber/default_local_assembler_for_potential_operators_on_surfaces_imp.hpp", "lib/fiber/numerical_kernel_trial_integrator_imp.hpp", "lib/fiber/default_kernel_trial_integral_imp.hpp", "lib/fiber/default_quadrature_descriptor_selector_for_potential_operators.cpp", "lib/fiber/simple_scalar_kernel_trial_integrand_functor.hpp", "lib/fiber/simple_vectorial_kernel_trial_integrand_functor.hpp", "lib/fiber/modified_maxwell_3d_single_layer_potential_operator_integrand_functor.hpp", "lib/fiber/modified_maxwell_3d_double_layer_potential_operator_integrand_functor.hpp", "lib/operators/*_potential_operator.cpp"]}
{"id": "C80", "title": "Potentials", "statement": "Assembling a potential operator at points and applying it to the coefficients of a function always succeeds and yields one row for each component and one column for each point; the values do not depend on the schedule. At points that are not quadrature nodes they are the single- and double-layer potentials of the function (Laplace, modified Helmholtz, Helmholtz), their gradients, the electric and magnetic potentials, and - for unit vectors - the far-field patterns of these, all with the same quadrature nodes. Away from the nodes potentials with fixed nodes solve the Laplace, modified Helmholtz or Helmholtz equation exactly, and the nodes are the same for all points if the accuracy does not depend on the distance. The constructor accepts exactly the consistent arguments.", "quantifier": "all operators, wave numbers, spaces, coefficients, points, schedules", "why_tests_cant": "all points, spaces and schedules; the equations are statements about derivatives", "anchors": ["lib/assembly/dense_global_assembler.cpp: assemblePotentialOperator", "lib/assembly/assembled_potential_operator.cpp: AssembledPotentialOperator, apply", "lib/operators/*_potential_operator.cpp", "lib/operators/helmholtz_operators.hpp: helmholtzSingleLayerPotentialOperator, helmholtzDoubleLayerPotentialOperator"]}
{"id": "C81", "title": "Discrete operators of the Python layer follow matrix algebra", "statement": "Every expression built with +, -, scalar factors and products from dense, sparse, nonlocal, zero, rank-one and inverse discrete operators of matching shapes can be evaluated and the result acts on vectors and on arrays with several columns as the matrix given by matrix algebra; a real type implies a real matrix; as_matrix returns that matrix; operands or vectors of the wrong size raise an exception.", "quantifier": "all expressions of any depth, all shapes, entries and factors, all arrays the result is applied to", "why_tests_cant": "Unit tests apply a few operators to a few vectors; the expressions are unbounded and each class has its own branches for real and complex arguments.", "anchors": ["python/bempp/api/assembly/discrete_boundary_operator.py: GeneralNonlocalDiscreteBoundaryOperator, DenseDiscreteBoundaryOperator, SparseDiscreteBoundaryOperator, InverseSparseDiscreteBoundaryOperator, ZeroDiscreteBoundaryOperator, DiscreteRankOneOperator, as_matrix", "cython/bempp/core/assembly/discrete_boundary_operator.pyx: RealDiscreteBoundaryOperator, ComplexDiscreteBoundaryOperator", "cython/bempp/core/utils/enum_types.pyx: compute_transpose_mode"]}
{"id": "C82", "title": "Transposes and adjoints of discrete operators in Python", "statement": "Transposing or forming the adjoint of any expression of discrete operators gives the operator of the transposed or conjugate transposed matrix, rmatvec multiplies by the adjoint, and wrappers of C++ operators have the shape and the product of their mode.", "quantifier": "all expressions, all modes, all shapes, entries and arrays", "why_tests_cant": "The table of modes and the classes combine in unboundedly many ways; tests only look at one level of nesting.", "anchors": ["python/bempp/api/assembly/discrete_boundary_operator.py: GeneralNonlocalDiscreteBoundaryOperator, DenseDiscreteBoundaryOperator, SparseDiscreteBoundaryOperator, InverseSparseDiscreteBoundaryOperator, ZeroDiscreteBoundaryOperator, DiscreteRankOneOperator, as_matrix", "cython/bempp/core/assembly/discrete_boundary_operator.pyx: RealDiscreteBoundaryOperator, ComplexDiscreteBoundaryOperator", "cython/bempp/core/utils/enum_types.pyx: compute_transpose_mode"]}
{"id": "C83", "title": "Inverses of sparse operators solve the system", "statement": "The inverse of a sparse operator can be constructed exactly when the matrix has full rank; applied to a real or complex right-hand side with at least two entries it returns the solution of the system when there are at least as many columns as rows, and otherwise the least-squares solution; among all solutions it is the smallest.", "quantifier": "all real and complex sparse matrices of any shape and all right-hand sides", "why_tests_cant": "Rectangular mass matrices of every shape occur; a test checks one.", "anchors": ["python/bempp/api/assembly/discrete_boundary_operator.py: GeneralNonlocalDiscreteBoundaryOperator, DenseDiscreteBoundaryOperator, SparseDiscreteBoundaryOperator, InverseSparseDiscreteBoundaryOperator, ZeroDiscreteBoundaryOperator, DiscreteRankOneOperator, as_matrix", "cython/bempp/core/assembly/discrete_boundary_operator.pyx: RealDiscreteBoundaryOperator, ComplexDiscreteBoundaryOperator", "cython/bempp/core/utils/enum_types.pyx: compute_transpose_mode"]}
{"id": "C84", "title": "Boundary operators of the Python layer", "statement": "For operators constructed with +, -, factors, products, dual products, transposes, adjoints and projections to other spaces, weak and strong forms requested in any order are those given by the formulas of the documentation; each elementary operator is assembled at most once, and all results are consistent: they use its discretisation at that one time, even if parameters change in between. Without transposes every such form can be computed and acts as a matrix with one row for each dof of the dual space (strong form: of the range) and one column for each dof of the domain. recompute=True makes the forms use the current parameters.", "quantifier": "all programs constructing operators, all histories of requests and changes of parameters", "why_tests_cant": "Results depend on the history of requests through caches in every operator; tests request each form once.", "anchors": ["python/bempp/api/assembly/boundary_operator.py: BoundaryOperator.weak_form, strong_form, _SumBoundaryOperator, _ScaledBoundaryOperator, _ProductBoundaryOperator, _DualProductBoundaryOperator, _TransposeBoundaryOperator, _AdjointBoundaryOperator, _ProjectionBoundaryOperator, _ReinterpretSpacesBoundaryOperator, ZeroBoundaryOperator", "python/bempp/api/space/projection.py: project_operator, discrete_coefficient_projection"]}
{"id": "C85", "title": "Grid functions of the Python layer", "statement": "A grid function is determined by its space and coefficients: whatever functions are constructed (from coefficients, projections or a callable), added, scaled, split into real and imaginary part, modified, mapped by operators and queried, in any order, coefficients and projections returned are those of the function, independent of what was requested or cached before; functions of different spaces cannot be added; products of operators act like the operators one after the other; l2_norm is the norm given by the mass matrix, integrate the sum over the elements.", "quantifier": "all histories of operations on any number of grid functions, all spaces, vectors and operators", "why_tests_cant": "Each object caches coefficients and projections and changes its representation lazily; the result of a call depends on the whole history.", "anchors": ["python/bempp/api/assembly/grid_function.py: GridFunction", "python/bempp/api/assembly/boundary_operator.py: BoundaryOperator.__mul__"]}
{"id": "C86", "title": "Discrete blocked operators of the Python layer", "statement": "A discrete blocked operator is accepted exactly if its blocks fit together and each block row and column has a block; it acts as the block matrix with missing blocks zero; sums, differences, multiples and products of blocked operators act as the block matrix of matrix algebra, for vectors and for matrices, real and complex; op[i, j] is block (i, j) and as_matrix the whole matrix; operators and vectors of the wrong size are refused.", "quantifier": "all numbers and sizes of blocks, all blocks built from dense, sparse, nonlocal, inverse, rank-one and zero operators, all expressions and all arguments", "why_tests_cant": "Offsets and types depend on all blocks; tests use two by two examples with equal block sizes.", "anchors": ["python/bempp/api/assembly/blocked_operator.py: BlockedDiscreteOperator, BlockedDiscreteOperatorSum, BlockedDiscreteOperatorProduct, BlockedScaledDiscreteOperator"]}
{"id": "C87", "title": "Blocked boundary operators of the Python layer", "statement": "A sequence of assignments to a blocked operator is accepted exactly if the operators in each row share range and dual space and those in each column share the domain; afterwards each position holds the operator assigned last. Weak and strong forms of blocked operators, sums, multiples and products, requested in any order with or without recomputation, return the discrete blocked operator given by the algebraic formula (inverse mass matrices of the rows times the weak form), and multiplying with a list of grid functions returns functions in the range spaces with the projections given by the block matrix.", "quantifier": "all programs constructing blocked operators, all sequences of assignments, all histories of requests, all lists of functions", "why_tests_cant": "caches, recomputation and composite operators interact over unboundedly many histories and block structures", "anchors": ["python/bempp/api/assembly/blocked_operator.py: BlockedOperatorBase, BlockedOperator, SumBlockedOperator, ProductBlockedOperator, ScaledBlockedOperator"]}
{"id": "C88", "title": "Iterative solvers return functions that solve the equation", "statement": "gmres (for boundary operators and for blocked operators) and cg, called with any SciPy solver that keeps SciPy's promise, return functions of the operator's domain space(s); if info is 0, the projections (weak form) or coefficients (strong form) of A f differ from those of b by at most the relative tolerance, so that an exact solver gives A f = b with and without strong form.  info is SciPy's, the iteration count is the number of callback calls, residuals are the norms of what gmres passes and of b - A x for cg.  Arguments of the wrong type, incompatible spaces and operators that are not square raise ValueError.", "quantifier": "all operators built with sums, multiples, products and projections (all filled blocked operators), all spaces with invertible mass matrices, all right-hand sides given by coefficients or by projections onto the dual space, all solvers, tolerances and options", "why_tests_cant": "solvers, operators and right-hand sides are arbitrary; tests run a few systems", "anchors": ["python/bempp/api/linalg/iterative_solvers.py: gmres, cg, _gmres_single_op_imp, _gmres_block_op_imp, _it_counter", "python/bempp/api/assembly/blocked_operator.py: coefficients_of_grid_function_list, projections_of_grid_function_list, grid_function_list_from_coefficients"]}
{"id": "C89", "title": "OSRC operators are rational approximations of the square root operator", "statement": "The coefficients used by osrc_dtn and osrc_ntd are defined for every number of terms and every angle; the rational function they describe has no poles off the branch cut chosen by the angle, equals the square root of 1+z with that branch cut up to a relative error that decreases geometrically with the number of terms, and has the order 2n+1 of a Pade approximant.  With the default damping (positive wave number, angle in [0, pi)) or any admissible damped wave number all matrices that are inverted are nonsingular, the weak forms act as the documented matrices, and on every discrete eigenfunction of the Laplace-Beltrami operator osrc_dtn multiplies by ik sqrt(1 + Delta/k_eps^2) and osrc_ntd by its reciprocal, up to the errors above.", "quantifier": "all numbers of terms, angles and wave numbers, all symmetric positive (semi)definite mass and stiffness matrices with other than one degree of freedom, all modes", "why_tests_cant": "the number of terms, the angle, the wave number and the spectrum are arbitrary, convergence is a limit; tests look at one grid", "anchors": ["python/bempp/api/operators/boundary/helmholtz.py: osrc_dtn, osrc_ntd, _OsrcDtn, _OsrcNtd, _pade_coeffs", "python/bempp/api/assembly/discrete_boundary_operator.py: InverseSparseDiscreteBoundaryOperator"]}
{"id": "C90", "title": "The algebra of potential operators agrees with the algebra of the potentials", "statement": "Every expression built with +, -, unary minus and multiplication by numbers from potential operators with the same evaluation points, number of components and compatible spaces evaluates without error, keeps the points and the number of components, and evaluate applied to a grid function returns a components x points array holding the same expression of the values of the parts.  Sums of operators with other components, points or spaces are refused with ValueError.", "quantifier": "all expressions, all numbers of components, points and dofs, all assembled matrices, all grid functions", "why_tests_cant": "expressions are unbounded and every entry of every result has to agree; tests evaluate one operator on one mesh", "anchors": ["python/bempp/api/assembly/potential_operator.py: PotentialOperator", "python/bempp/api/operators/potential/_common.py: potential_logger", "python/bempp/api/operators/potential/laplace.py: single_layer"]}
{"id": "C91", "title": "The direct solver returns the solution of the operator equation", "statement": "lu(A, b) for a boundary operator with a nonsingular matrix returns a function of the domain of A whose image under A has the projections and, in the range space, the coefficients of b; the same holds if the LU factors computed by compute_lu_factors are passed.", "quantifier": "all operators built by the operator algebra, all right-hand sides given by coefficients or projections, all sizes", "why_tests_cant": "a test solves one system; agreement of spaces, projections and coefficients must hold for all of them", "anchors": ["python/bempp/api/linalg/direct_solvers.py: lu, compute_lu_factors"]}
{"id": "C92", "title": "Local refinement terminates and gives a conforming grid", "statement": "For every triangular surface grid in which no edge belongs to more than two elements and every set of marked elements, refine() ends, in whatever order the marks are processed. It cuts exactly the reference edges of the marked elements and, recursively, of the elements that have a cut edge; each cut edge gets one new vertex, its midpoint, and old vertices keep their numbers and coordinates. Every element is replaced, in order, by its newest-vertex bisection and hands on its domain index: marked elements are split, elements without cut edges do not change, the children cover the element and keep its normal. No cut edge remains, an edge or half edge belongs to as many elements as the old edge, an inner edge to two, so closed surfaces stay closed and the result can be refined again any number of times.", "quantifier": "all manifold triangular grids, choices of reference edges, sets of marks, orders of processing, and numbers of repeated refinements", "why_tests_cant": "Whether the closure terminates and leaves no hanging node depends on the connectivity, the reference edges and the order in which a Python set is popped; tests see few of these.", "anchors": ["python/bempp/api/grid/grid_view.py:GridView.refine", "python/bempp/api/grid/grid_view.py:GridView.mark", "python/bempp/api/grid/grid_view.py:GridView.get_mark", "python/bempp/api/grid/grid_view.py:GridView.clear_marks"]}
{"id": "C93", "title": "Grids survive Gmsh files", "statement": "For every triangular grid with at least one element, the Gmsh exporter writes a file, and importing the file gives a grid with the same elements in the same order, the same domain indices and exactly the used vertices, each with its coordinates, in the order of their first use; the recorded numbers say which vertex of the original each one is. This holds for text files with any vertex and element data beside the grid, and for binary files without data whose numbers fit in 32 bits. A grid whose vertices are numbered by first use comes back unchanged, so after one round trip further round trips change nothing. The reader ends on every file, whatever it contains: it returns a grid or raises an exception.", "quantifier": "all triangular grids, domain indices, data series, element orders and vertex numberings; for termination all sequences of bytes", "why_tests_cant": "Round trips depend on the digits of every number, on which bytes look like line ends, and on the order in which vertices are used; termination has to hold for every malformed file.", "anchors": ["python/bempp/api/file_interfaces/gmsh.py:parse_gmsh", "python/bempp/api/file_interfaces/gmsh.py:export_data_sets", "python/bempp/api/file_interfaces/gmsh.py:create_grid_structure", "python/bempp/api/file_interfaces/gmsh.py:import_data_sets", "python/bempp/api/file_interfaces/general_interface.py:export"]}
{"id": "C94", "title": "Grids and data survive JSON files", "statement": "Data sets exported to JSON come back exactly: for every list of data sets, each with a grid whose arrays have consistent shapes and 32 bit numbers, any real data and any complex data with at least one array and finite imaginary parts, the import returns the same vertices, elements, numbers, domain indices, descriptions, data arrays, types and time steps; so different data sets give different files. The base64 text of an array needs no escaping and is insensitive to line breaks.", "quantifier": "all lists of data sets, array shapes and double precision values; all byte sequences for base64", "why_tests_cant": "The encoding groups bytes in threes and arrays are reshaped from flat buffers; every length, remainder and order of axes has to come out right.", "anchors": ["python/bempp/api/file_interfaces/json.py:export_data_sets", "python/bempp/api/file_interfaces/json.py:import_data_sets", "python/bempp/api/file_interfaces/general_interface.py:GenericGrid", "python/bempp/api/file_interfaces/general_interface.py:Data", "python/bempp/api/file_interfaces/general_interface.py:GridDataSet", "python/bempp/api/file_interfaces/general_interface.py:numpy_to_base64", "python/bempp/api/file_interfaces/general_interface.py:base64_to_numpy"]}
{"id": "C95", "title": "Compound boundary operators are the Galerkin matrices they stand for", "statement": "Layer potentials' boundary operators have the Galerkin matrix of the requested form in the requested spaces, whatever the settings (projection to super spaces, dense assembly, barycentric spaces). project_operator gives the form after L2 projections to the spaces of the operator, and the form itself on subspaces. A hypersingular operator built from a single-layer operator (use_slp) is the sum of that form over the components of surface curls and normals; where integration by parts is valid and the space contains curls and normals it equals the direct operator. The pairs (with stabilisation and base_slp), the multitrace operators for Laplace, (modified) Helmholtz and Maxwell with and without target grid, the multitrace identities and the squared electric field operator consist of the right blocks with the right signs, transposes and spaces, are created without exceptions, and need only one or two integral operators. Each weak_form() of them, in any history of requests, acts as that matrix.", "quantifier": "all exact libraries (linearly independent basis functions, exact integrals), all spaces and settings, all existing operators, all histories of requests", "why_tests_cant": "The compound operators consist of dozens of sparse products, inverses of mass matrices, transposes and sign changes on seven spaces; tests compare a few entries on one grid.", "anchors": ["python/bempp/api/operators/boundary/_common.py:get_operator_with_space_preprocessing", "python/bempp/api/operators/boundary/_common.py:get_wave_operator_with_space_preprocessing", "python/bempp/api/operators/boundary/_common.py:slp_and_hyp_impl", "python/bempp/api/operators/boundary/_common.py:multitrace_operator_impl", "python/bempp/api/operators/boundary/laplace.py:hypersingular", "python/bempp/api/operators/boundary/laplace.py:single_layer_and_hypersingular_pair", "python/bempp/api/operators/boundary/modified_helmholtz.py:hypersingular", "python/bempp/api/operators/boundary/maxwell.py:electric_field", "python/bempp/api/operators/boundary/maxwell.py:multitrace_operator", "python/bempp/api/operators/boundary/maxwell.py:calderon_electric_field", "python/bempp/api/operators/boundary/sparse.py:multitrace_identity", "python/bempp/api/space/projection.py:project_operator", "python/bempp/api/space/projection.py:rewrite_operator_spaces"]}
{"id": "C96", "title": "Buffa-Christiansen spaces are the dual basis on every oriented surface", "statement": "On every oriented triangulated surface, closed or with boundary, the construction of a Buffa-Christiansen space and of a rotated Buffa-Christiansen space succeeds, whatever the segment. Its dof maps are consistent; the dofs correspond one to one to the sides with two neighbours; the function of a dof lives on the triangles of the barycentric refinement at the two ends of its side. Through the two segments from the midpoint of the side to the barycentres of its triangles flows half the coefficient each, through those at other sides nothing; the divergence is equally distributed to the triangles at each end (1 in total at one end, -1 at the other), and zero at ends on the boundary. All functions of the space have continuous normal components across all sides of the refinement, all functions of the rotated space continuous tangential components.", "quantifier": "all grids whose triangles form one fan around each vertex (closed or open, any valence), all embeddings, all segments, all coefficients, all points of all sides of the refinement", "why_tests_cant": "The construction walks around vertices with tables of sides and signs; tests use one closed grid and compare integrals.", "anchors": ["lib/space/buffa_christiansen_vector_space.cpp:assignDofsImpl", "lib/space/rotated_buffa_christiansen_vector_space.cpp:assignDofsImpl", "lib/fiber/buffa_christiansen_shapeset.hpp:evaluate", "lib/fiber/rotated_buffa_christiansen_shapeset.hpp:evaluate", "lib/grid/concrete_grid.hpp:barycentricGridSonPair"]}
{"id": "C97", "title": "Chebyshev interpolation is exact for polynomials up to its order", "statement": "For every positive order the Chebyshev tools have order + 1 nodes, decreasing from 1 to -1. Evaluating an interpolation reproduces every polynomial of at most that degree at all points (nodes or not), and gives, for arbitrary values, a polynomial with these values at the nodes. The child interpolation matrix takes values of such a polynomial on a box to its values on both children, for every relative width; the derivative weights give the values of the derivative, in one variable and in each of the three directions on a cube of nodes.", "quantifier": "all positive orders, all polynomials of at most that degree, all values, all evaluation points, all ratios, all three directions", "why_tests_cant": "Each order has its own nodes and weights; tests interpolate one function at one order and compare with a tolerance.", "anchors": ["lib/fmm/chebychev_tools_impl.hpp:evaluateInterpolation", "lib/fmm/chebychev_tools_impl.hpp:childInterpolationMatrix", "lib/fmm/chebychev_tools_impl.hpp:derivativeWeights3d", "cython/bempp/core/fmm/chebychev_tools.pyx", "python/bempp/api/_fmm/chebychev_tools.py"]}
{"id": "C98", "title": "Boundary integral operators assemble to the matrices of their documented bilinear forms", "statement": "For each of the Laplace, Helmholtz, modified Helmholtz and Maxwell boundary operators (single layer, double layer, adjoint, hypersingular; electric and magnetic field), assembling the weak form in dense mode ends with a matrix of (test dofs) x (trial dofs), whatever the integral implementation (BLAS or not), the caching of singular integrals, the split of the loop over trial elements into chunks and their interleaving, and what uninitialised buffers hold. Applied to the coefficients of a test and a trial function, the matrix gives the approximation of the documented double surface integral by the quadrature rules chosen for the pairs of elements, with the fundamental solution, its normal derivatives and gradient as mathematical derivatives and the functions' values, surface curls, fields and divergences as kernels and functions.", "quantifier": "all operators of the list, all wave numbers (nonzero for the electric field operator), all triangle grids, all spaces with consistent dof maps, all accuracy options with rules, all schedules, all contents of uninitialised memory, all coefficient vectors", "why_tests_cant": "Tests compare a few matrices for one grid with stored values or with tolerances; they cannot cover the pairs of kernels, transformations, integrals, buffers and schedules.", "anchors": ["lib/operators/laplace_operators_imp.hpp", "lib/operators/helmholtz_operators.hpp", "lib/operators/modified_helmholtz_operators_imp.hpp", "lib/operators/maxwell_operators_imp.hpp", "lib/fiber/separable_numerical_test_kernel_trial_integrator_imp.hpp:integrateCpu", "lib/fiber/nonseparable_numerical_test_kernel_trial_integrator_imp.hpp:integrate", "lib/fiber/default_test_kernel_trial_integral_imp.hpp:evaluateWithTensorQuadratureRule", "lib/fiber/default_local_assembler_for_integral_operators_on_surfaces_imp.hpp:evaluateLocalWeakForms", "lib/assembly/dense_global_assembler.cpp:assembleDetachedWeakForm"]}
{"id": "C99", "title": "Quadrature nodes of boundary operators never coincide; the matrices follow from the forms alone", "statement": "Quadrature points of regular triangle rules lie inside the triangle for every order up to 20 but 11, 15, 16, 18 and 20, whose rules have points outside it; points of singular rules always do, with positive weights, and for a triangle paired with itself the two points of a node differ. So, when no two triangles overlap and those orders are not used, no kernel is ever evaluated at its singularity, and the matrix of every boundary operator is that of the documented form; operators with the same form have the same matrix; the Laplace hypersingular operator takes functions that are constant on each triangle to zero.", "quantifier": "all orders, all pairs of triangles of all grids without overlap, all operators, all executions", "why_tests_cant": "There are infinitely many pairs of triangles; a test on one grid cannot exclude coinciding nodes on another.", "anchors": ["lib/fiber/default_double_quadrature_rule_family.cpp:fillQuadraturePointsAndWeights", "lib/fiber/numerical_quadrature.cpp", "lib/fiber/default_quadrature_descriptor_selector_for_integral_operators.cpp:quadratureDescriptor"]}
{"id": "C100", "title": "Sierpinski shapes: well-formed geometry, self-similar cells, shared points, outward orientation", "statement": "For every level of at least 1, sierpinski_pyramid and sierpinski_triangle hand Gmsh a well-formed geometry (smaller levels raise ValueError): numbers are unique, everything is declared before it is used, every line loop is closed, and the surfaces are exactly the sides of the 4^level tetrahedra (the 3^level triangles) that the maps 'half way to a corner' make of the regular one. Cells that touch share the point they touch in and no position is given to two points; the pyramid's surface is closed and oriented outwards, the triangle's cells are passed counterclockwise and have no side in common.", "quantifier": "all levels and element sizes", "why_tests_cant": "The number of cells grows exponentially with the level; tests look at one or two levels, and at meshes rather than at identities of points and directions of sides.", "anchors": ["python/bempp/api/shapes/fractals.py:sierpinski_pyramid", "python/bempp/api/shapes/fractals.py:sierpinski_triangle"]}
{"id": "C101", "title": "Koch's snowflake is a simple, counterclockwise, self-similar polygon at every level", "statement": "For every level of at least 1, koch_snowflake hands Gmsh a well-formed geometry (smaller levels raise ValueError) with a single surface, bounded by the polygon that replacing every side of an equilateral triangle 'level' times by four sides gives. The 3*4^level points are the corners of that polygon, each once; the polygon never meets itself, its sides all have length 3^-level, it is passed counterclockwise, the triangles are put on the outside and the area is sqrt(3)/20*(8-3*(4/9)^level).", "quantifier": "all levels and element sizes", "why_tests_cant": "That no two of 3*4^level sides meet is a statement about all pairs of sides and all levels; a test meshes one or two levels.", "anchors": ["python/bempp/api/shapes/fractals.py:koch_snowflake"]}
{"id": "C102", "title": "The Menger sponge's geometry is the closed boundary of the recursively defined sponge", "statement": "For every level of at least 0, menger_sponge hands Gmsh a well-formed geometry (negative levels raise TypeError). Its surfaces are exactly the sides between a cell of the sponge (20^level cells, by the recursive definition) and a cell that does not belong to it, each once; they form a closed, consistently oriented surface, no point or line is given twice and no point is unused. The normals point out of the sponge, as those of the other closed shapes do.", "quantifier": "all levels and element sizes", "why_tests_cant": "The number of cells grows as 20^level; that the surface has no edge shared by four sides is a property of all levels, and orientation is not visible in a mesh plot.", "anchors": ["python/bempp/api/shapes/fractals.py:menger_sponge"]}
{"id": "C103", "title": "The Sierpinski carpet's geometry is the recursively defined carpet, with connected squares", "statement": "For every level of at least 1, sierpinski_carpet hands Gmsh a well-formed geometry (smaller levels raise ValueError) whose surfaces are exactly the 8^level squares of the carpet, each passed counterclockwise; lines between the same points are the same line, and squares that touch share the points in which they touch.", "quantifier": "all levels and element sizes", "why_tests_cant": "Which squares share points is a statement about all pairs of squares at all levels; a plot of the mesh does not show that neighbouring squares are disconnected.", "anchors": ["python/bempp/api/shapes/fractals.py:sierpinski_carpet"]}
{"id": "C104", "title": "The regular sphere is a closed, conforming, outward oriented triangulation of the sphere", "statement": "For every refinement level, positive radius and origin, regular_sphere/grid_from_sphere creates exactly 8*4^n elements and 4*4^n+2 nodes (a negative level acts as 0); all nodes lie on the sphere, are different and used; elements refer to existing nodes; the surface is closed and consistently oriented with the normals pointing away from the centre; two elements only meet in what their common corners span; every ray from the centre meets the surface in exactly one point; and the nodes of a level keep number and place at the next level.", "quantifier": "all levels, radii and centres", "why_tests_cant": "The grid grows by a factor 4 per level; that no two elements overlap and no ray is missed concerns all pairs of elements, all directions and all levels, and edge nodes are shared through a map whose state depends on the order of the elements.", "anchors": ["cython/bempp/core/grid/py_sphere.hpp:SphereMesh", "cython/bempp/core/grid/grid.pyx:grid_from_sphere", "python/bempp/api/shapes/shapes.py:regular_sphere"]}
{"id": "C105", "title": "What the H-matrix inspection functions return is the H-matrix the operator applies", "statement": "For an H-matrix operator, block_cluster_tree(op).leaf_nodes yields every leaf once, the ranges of the leaves tile the matrix, data_block returns for every leaf the block that the product uses, of the shape of the node, so that the matrix put together from the blocks is the matrix of the operator; number_of_dense_blocks, number_of_low_rank_blocks and number_of_blocks count these blocks, and mem_size and compression_rate give their memory up to rounding.", "quantifier": "all H-matrices: geometries, block sizes, admissibility functions, compressors, value types, numbers of processes; all enumeration orders of the hash map", "why_tests_cant": "Trees, block counts and distributions over processes are unbounded, and the enumeration order of a concurrent hash map is not under the control of a test.", "anchors": ["python/bempp/api/hmat/hmatrix_interface.py", "cython/bempp/core/hmat/block_cluster_tree.pyx:BlockClusterTree.leaf_nodes", "cython/bempp/core/hmat/hmatrix_interface.pyx", "lib/hmat/hmatrix_impl.hpp:HMatrix::initialize", "lib/hmat/hmatrix.hpp:m_memSizeKb"]}
{"id": "C106", "title": "Grids made through the Python interface have exactly the data they are made from", "statement": "A GridFactory returns on finalize the grid with exactly the inserted vertices, elements and domain indices, in the order of insertion, and that grid does not change afterwards; grid_from_element_data makes the grid with the given 3 x n arrays or raises; clone makes an equal grid; union(grids, domain_indices) has the vertices and elements of all grids one after the other, every element with its old corner points and the domain index of its grid, and no vertices shared between different grids.", "quantifier": "all sequences of factory calls, all arrays, all lists of grids and domain indices", "why_tests_cant": "The sequences of calls and the arrays are unbounded, and aliasing between a factory and its grids only shows in particular histories.", "anchors": ["cython/bempp/core/grid/grid_factory.pyx", "lib/grid/grid_factory.cpp", "lib/grid/bempp_grid/triangle_imp/bempp_grid_triangle_factory.hpp", "cython/bempp/core/grid/grid.pyx:grid_from_element_data", "cython/bempp/core/grid/grid.pyx:Grid.clone", "lib/grid/concrete_grid_view_imp.hpp:getRawElementDataImpl", "python/bempp/api/shapes/shapes.py:union"]}
{"id": "C107", "title": "Queries of the Python grid classes agree with the grid", "statement": "element_from_insertion_index and vertex_from_insertion_index return the entity with that insertion index; element_from_index, vertex_from_index and edge_from_index return the entity with that index; vertex_to_element_matrix and edge_to_element_matrix have the entry 1 exactly for a vertex or edge of an element; mark, clear_marks and get_mark keep the set of marked elements.", "quantifier": "all grids, all orders of iteration over entities, all histories of calls", "why_tests_cant": "The result of a lookup depends on the calls made before, and the grids are unbounded.", "anchors": ["cython/bempp/core/grid/grid.pyx:Grid.element_from_insertion_index", "cython/bempp/core/grid/grid.pyx:Grid.vertex_from_insertion_index", "python/bempp/api/grid/grid_view.py", "python/bempp/api/grid/grid.py:Grid.get_mark"]}
{"id": "C108", "title": "structured_grid makes the rectangle in the requested plane", "statement": "structured_grid(lower_left, upper_right, (n, m), axis, offset) makes (n+1)(m+1) vertices at the subdivision points and 2nm triangles that cover exactly the rectangle in the plane of the two axes named, at the given offset along the third; all triangles have the same area and orientation; it raises exactly for arguments of the wrong length, fewer than one subdivision, or another axis string.", "quantifier": "all rectangles, subdivisions, axes, offsets, over every (ordered) field", "why_tests_cant": "Sizes and coordinates are unbounded; covering is a statement about all points of the plane.", "anchors": ["python/bempp/api/grid/grid.py:structured_grid", "cython/bempp/core/grid/grid.pyx:structured_grid", "lib/grid/structured_grid_factory.hpp"]}
{"id": "C109", "title": "The discontinuous polynomial space and the space of constants have the documented dofs", "statement": "The discontinuous polynomial space of order 0 to 10 gives every selected node of every triangle its own global dof and no dof to other nodes; a node is selected as the documentation of the dof mode says; its dof maps are consistent, the reported counts agree and the position of a dof is the centre of the vertex, edge or triangle its node lies on; discontinuousSpace() of a continuous polynomial space returns the discontinuous space with exactly the local dofs of the continuous one; the space of constants has one global dof that is the only dof of every element.", "quantifier": "all triangular meshes, segments, dof modes, orders", "why_tests_cant": "Meshes and segments are unbounded; the number of nodes grows with the order; the agreement of two spaces is a statement about all nodes.", "anchors": ["lib/space/piecewise_polynomial_discontinuous_scalar_space.cpp:assignDofsImpl", "lib/space/piecewise_polynomial_discontinuous_scalar_space.cpp:initialize", "lib/space/piecewise_polynomial_continuous_scalar_space.cpp:discontinuousSpace", "lib/space/unit_scalar_space.cpp:assignDofsImpl"]}
{"id": "C110", "title": "The FEniCS coupling returns the exact trace and leaves FEniCS settings as they were", "statement": "For a FEniCS P1 space the trace data consist of a grid with one element per boundary cell, the P1 space on it with one dof per boundary vertex, and a matrix that takes the coefficients of any FEniCS function to the coefficients of its restriction to the boundary: at every point of every cell both functions agree. Other families or degrees raise. The weak form of a FEniCS operator is assembled once with a supported backend, later calls return the same matrix, and the user's backend setting is not changed.", "quantifier": "all boundary meshes, dof numberings, coefficient vectors, backends and outcomes of the assembly", "why_tests_cant": "Meshes, numberings of dofs and coefficient vectors are unbounded; the tests in the repository do not run without FEniCS.", "anchors": ["python/bempp/api/fenics_interface/coupling.py:fenics_to_bempp_trace_data", "python/bempp/api/fenics_interface/p1_coupling.py:p1_dof_to_vertex_matrix", "python/bempp/api/fenics_interface/p1_coupling.py:p1_trace", "python/bempp/api/fenics_interface/fenics_operator.py:FenicsOperator.weak_form"]}
{"id": "C111", "title": "Multi-dimensional arrays are memory safe and behave like values", "statement": "The 2-, 3- and 4-dimensional arrays behave like independent values for every history of construction, copying, assignment, resizing, writing, += and *= and destruction: no out-of-range access, use after free, double free or leak; an element read is the one written last, other arrays are not affected unless the user placed both on the same memory; copies and assignments have the extents and elements of their source; += on arrays of different extents is rejected; elements are stored with the first index running fastest; a slice shows the elements with the trailing indices fixed.", "quantifier": "all sequences of operations on any number of arrays of all extents, debug and release builds, all contents of uninitialised memory", "why_tests_cant": "The histories of operations and the aliasing patterns are unbounded; memory errors need not show in a test run.", "anchors": ["lib/fiber/_2d_array_imp.hpp:_2dArray", "lib/fiber/_3d_array_imp.hpp:_3dArray", "lib/fiber/_4d_array_imp.hpp:_4dArray", "lib/fiber/_3d_array_imp.hpp:_2dSliceOf3dArray"]}
{"id": "C112", "title": "function_space creates the space its arguments describe", "statement": "function_space(grid, kind, order, domains, closed, strictly_on_segment, reference_point_on_segment, element_on_segment) creates the space its arguments describe: documented combinations are accepted, all others raise ValueError; the dofs of P, DP, RT, NC, SNC and RWG spaces sit exactly on the nodes or edges of the chosen part of the grid (closed or open, truncated or not), P functions are continuous and contained in super_space; two spaces are equal (==) exactly when their arguments agree up to the order of the domains, and then they are the same space with equal companions; is_barycentric, grid, has_local_support, non_barycentric_space, discontinuous_space, super_space and the functor are those of the kind; the rotated companion of a curl-conforming space is function_space of the div-conforming kind.", "quantifier": "all argument combinations, all triangle grids, all domain assignments and subdomain lists, all coefficients", "why_tests_cant": "Fifteen kinds, eight arguments and arbitrary subdomain patterns; tests check dof counts for a few.", "anchors": ["python/bempp/api/space/space.py:function_space", "cython/bempp/core/space/space.pyx:function_space", "lib/space/adaptive_space_impl.hpp:AdaptiveSpace", "lib/grid/grid_segment.cpp:AdaptiveGridSegmentFactory"]}
{"id": "C113", "title": "Parameters take effect", "statement": "A parameter assigned on a parameter list takes effect and nothing else does: reading a property of a list returns the last value assigned to it or the documented default, whatever was assigned to other properties and other lists; assignments of the wrong type raise a Python exception and change nothing; assembly mode, singular-integral flag, quadrature orders by distance, and H-matrix options used by an assembly are those of the list at the time of the assembly, the interpolation of oscillatory kernels is that at the creation of the operator; unknown names are errors.", "quantifier": "all histories of creating lists and assigning properties, all values, all distances", "why_tests_cant": "The value used depends on the whole history of assignments to several lists; tests set a few parameters once.", "anchors": ["cython/bempp/core/utils/parameter_list.pyx:ParameterList", "cython/bempp/core/common/global_parameters.pyx:global_parameters", "lib/common/global_parameters.cpp:parameterList", "lib/assembly/context.cpp:Context", "lib/assembly/evaluation_options.cpp:EvaluationOptions", "lib/assembly/hmat_global_assembler.cpp:assembleDetachedWeakForm", "python/bempp/api/assembly/boundary_operator.py:ElementaryBoundaryOperator"]}
{"id": "C114", "title": "The singular part is the weak form on pairs of touching basis functions, zero elsewhere", "statement": "assemble_singular_part of an operator over two spaces with real weights on one grid returns a matrix of size test dofs times trial dofs whose entry for a pair of basis functions is the entry of the full (dense) weak form if the two functions live on elements that are equal or share a vertex, and zero otherwise, whatever order Python iterates the sets in; for spaces on different grids it is the zero matrix.", "quantifier": "all meshes, valid spaces with real local-to-global weights, local weak forms and set orders", "why_tests_cant": "The sets of pairs come from a product of incidence matrices, go through two hash sets of arbitrary order and a dictionary; a missing or double pair depends on the mesh and on the dof maps.", "anchors": ["python/bempp/api/assembly/assembler.py:assemble_singular_part", "python/bempp/api/assembly/assembler.py:_matrix_from_integration_pairs"]}
{"id": "C115", "title": "Dof boxes contain the supports; low-rank blocks have separated supports", "statement": "The bounding box that a space reports for a global dof is the smallest box with sides parallel to the axes that contains all elements on which the basis function lives, and its reference point is the position of the dof (vertex, edge midpoint, centre of the element, ...). So every H-matrix block stored in low-rank form is separated by a positive distance from the singularity of the kernel (with parameter eta: by more than the smaller cluster diameter divided by eta).", "quantifier": "all meshes, coordinates, segments, modes and orders; all cluster parameters and sorters", "why_tests_cant": "A box that misses a part of a support makes H-matrices wrong only for some meshes and cluster splittings, and only in some blocks.", "anchors": ["lib/space/space_helper.cpp:getGlobalDofBoundingBoxes_defaultImplementation", "lib/space/rwg_vector_space.cpp:assignDofsImpl", "lib/space/piecewise_polynomial_continuous_scalar_space.cpp:assignDofsImpl", "lib/space/buffa_christiansen_vector_space.cpp:assignDofsImpl", "lib/space/rwg_vector_space_barycentric.cpp:assignDofsImpl", "lib/assembly/hmat_interface.cpp:SpaceHMatGeometryInterface"]}
{"id": "C116", "title": "Interpolation points and normals of the scalar spaces", "statement": "`global_dof_interpolation_points` returns one point per dof at which the basis function of the dof is 1 and the others are 0, so that interpolating a function at these points gives coefficients of a function with the same values there; the continuous P1 interpolant of an affine function is the function. `global_dof_normals` returns for each dof the unit vector in the direction of the sum of the normals of the elements on which it lives, the common normal where the surface is flat.", "quantifier": "all triangular meshes, coordinates, segments and modes", "why_tests_cant": "A point or normal that belongs to another local dof is noticed only on meshes where the numbering of the corners differs from the tested one.", "anchors": ["lib/space/space_helper.cpp:getGlobalDofInterpolationPoints_defaultImplementation", "lib/space/space_helper.cpp:getGlobalDofNormals_defaultImplementation", "lib/space/space.hpp:getGlobalDofInterpolationPoints", "lib/space/piecewise_constant_scalar_space_barycentric.cpp:getGlobalDofPositions", "lib/grid/concrete_geometry.hpp:getNormalsImpl"]}
{"id": "C117", "title": "Sparse operators made from functors", "statement": "An operator made with `operator_from_functors` has as local matrices the integrals of the integrand functor applied to the test functor of the test function and the trial functor of the trial function, for every choice of functors. In particular the curl and normal operators from which the hypersingular operators are composed are minus a half (a sixth) of the opposite edge and the normal component times the mass matrix, and projecting them to discontinuous linear functions gives the curl and the normal times the function exactly; the divergence of Raviart-Thomas functions and the scalar curl of Nedelec functions have integral 1 over the element.", "quantifier": "all functors, triangles, lists of elements and orders of traversal", "why_tests_cant": "A wrong sign or a swapped functor changes the hypersingular operator by a term that vanishes on symmetric meshes; tests compare norms on one mesh.", "anchors": ["python/bempp/api/operators/boundary/sparse.py:operator_from_functors", "python/bempp/api/assembly/functors.py", "cython/bempp/core/fiber/shape_transformation_functors.hpp:ShapeTransformationFunctorContainer", "cython/bempp/core/fiber/local_integrand_functors.hpp:LocalIntegrandFunctorContainer", "python/bempp/api/operators/boundary/modified_helmholtz.py:hypersingular"]}
{"id": "C118", "title": "Evaluation, integration and norms of grid functions", "statement": "`evaluate` gives the linear combination of the local basis functions with the coefficients of their dofs and the dof weights (0 without a dof); `evaluate_surface_gradient` of a continuous piecewise linear function is the tangential vector whose product with a displacement is the change of the function; `evaluate_on_element_centers` and `evaluate_on_vertices` put the value at each barycentre and vertex in the column of that element or vertex; `integrate`, `surface_grad_norm` and `l2_norm(element)` are the integral of the function, of the squared gradient and of the squared function (square roots of the latter two); `relative_error` is 0 exactly if both functions agree at the quadrature points, and |\u03bb-1| for a multiple \u03bb of the other function.", "quantifier": "all grid functions, coefficients, triangles, meshes, segments, quadrature orders and comparison functions", "why_tests_cant": "A test compares a few functions on one grid; a wrong weight, dof, vertex column or factor can cancel there, and complex coefficients, excluded vertices and low quadrature orders are rarely tried.", "anchors": ["python/bempp/api/assembly/grid_function.py:evaluate", "python/bempp/api/assembly/grid_function.py:evaluate_on_vertices", "python/bempp/api/assembly/grid_function.py:evaluate_on_element_centers", "python/bempp/api/assembly/grid_function.py:evaluate_surface_gradient", "python/bempp/api/assembly/grid_function.py:integrate", "python/bempp/api/assembly/grid_function.py:l2_norm", "python/bempp/api/assembly/grid_function.py:surface_grad_norm", "python/bempp/api/assembly/grid_function.py:relative_error", "cython/bempp/core/space/local_evaluator.hpp:evaluateLocalBasis", "cython/bempp/core/space/local_evaluator.hpp:evaluateSurfaceGradients", "cython/bempp/core/space/space.pyx:evaluate_local_basis"]}
{"id": "C119", "title": "Compatibility of spaces through refinements", "statement": "After every history of creating grids and spaces and refining grids, a space of the Python API is the space that would be created from its arguments now, and `is_compatible` of two of them tells whether they have the same number of global dofs; between the library's concrete space classes it is an equivalence relation that tells whether the spaces consist of the same functions on the same grid, where P0 and P1 functions may be represented on the barycentric refinement, and then the numbers of dofs agree.", "quantifier": "all histories of grids, barycentric grids, spaces and refinements, all pairs of space classes, grids, segments and orders", "why_tests_cant": "Tests compare a few spaces on one fresh grid; the answer depends on the pair of classes, on which object is asked, on the identity of the grids and on refinements in between.", "anchors": ["lib/space/space.hpp:spaceIsCompatible", "lib/space/adaptive_space_impl.hpp:spaceIsCompatible", "lib/space/adaptive_space_impl.hpp:update", "lib/space/space_identifier.hpp:SpaceIdentifier", "lib/space/piecewise_constant_scalar_space.cpp:spaceIsCompatible", "lib/space/piecewise_linear_continuous_scalar_space_barycentric.cpp:spaceIsCompatible", "lib/space/piecewise_polynomial_discontinuous_scalar_space.cpp:spaceIsCompatible", "lib/grid/grid.cpp:isBarycentricRepresentationOf", "lib/grid/concrete_grid.hpp:globalRefine", "cython/bempp/core/space/space.pyx:is_compatible", "python/bempp/api/space/space.py:is_compatible"]}
{"id": "C120", "title": "Evaluators of potential operators", "statement": "An evaluator of a potential operator computes, for any points, number of points and coefficients of the argument, in every component the sum over the elements and their functions of the coefficient times the integral of the integrand over the triangle, by the quadrature rule of the order that the accuracy options request for great distances; the value does not depend on the region, on the order in which shapesets are visited, on the size of the chunks of points or on the schedule of the threads. Where the options ask for the same orders, it is the value of the assembled operator applied to the coefficients.", "quantifier": "all potential operators of the library, non-empty grids of triangles, shapesets with orders up to 20, complex local coefficients, points, orders of the set of shapesets, sizes of chunks and schedules", "why_tests_cant": "The chunk size depends on the number of quadrature points, the order of the shapesets on addresses, the order of the chunks on the scheduler; a test sees one combination, and most tests have one chunk and one shapeset.", "anchors": ["lib/fiber/default_evaluator_for_integral_operators_imp.hpp:evaluate", "lib/fiber/default_evaluator_for_integral_operators_imp.hpp:calcTrialData", "lib/fiber/default_evaluator_for_integral_operators_imp.hpp:cacheTrialData", "lib/fiber/default_kernel_trial_integral_imp.hpp:evaluate", "lib/fiber/default_quadrature_descriptor_selector_for_potential_operators.cpp:farFieldQuadratureDescriptor"]}
{"id": "C121", "title": "Discontinuous counterparts of spaces", "statement": "After every history of creating grids and spaces, refining grids and calling it, `discontinuousSpace` of an up-to-date space returns a space whose basis functions live on single elements of the same grid object, on the same segment for scalar functions, and whose functions contain those of the space, for vector functions each of their components; later calls return the same object and a discontinuous space is its own counterpart.", "quantifier": "all histories of grids, barycentric grids, spaces, refinements and calls, all space classes, segments and orders; all sums of vector shape functions on all flat triangles", "why_tests_cant": "Tests ask one fresh space of a few classes for its counterpart; the result depends on the class, on refinements in between and on what earlier calls have kept.", "anchors": ["lib/space/space.hpp:discontinuousSpace", "lib/space/space.hpp:isDiscontinuous", "lib/space/piecewise_constant_scalar_space_barycentric.cpp:discontinuousSpace", "lib/space/piecewise_constant_dual_grid_scalar_space.cpp:discontinuousSpace", "lib/space/piecewise_linear_continuous_scalar_space.cpp:discontinuousSpace", "lib/space/piecewise_linear_continuous_scalar_space_barycentric.cpp:discontinuousSpace", "lib/space/piecewise_linear_discontinuous_scalar_space_barycentric.cpp:discontinuousSpace", "lib/space/raviart_thomas_0_vector_space.cpp:discontinuousSpace", "lib/space/rwg_vector_space_barycentric.cpp:discontinuousSpace", "lib/space/unit_scalar_space.cpp:discontinuousSpace", "lib/space/adaptive_space_impl.hpp:discontinuousSpace"]}
{"id": "C122", "title": "Arrays between NumPy and Eigen", "statement": "A NumPy array given to a method that takes a matrix or vector arrives with its shape and its entries, whatever its strides, memory order and type (converted to the type asked for); every matrix or vector that is returned arrives in NumPy with its shape and entries and gives back the same matrix when it is handed over again; arrays of another dimension, without entries, or read-only ones that are not copied raise an exception.", "quantifier": "all arrays with any shape, strides (negative and zero too), memory and flags, and all matrices and vectors", "why_tests_cant": "Tests convert small contiguous arrays; slices, broadcast arrays, transposed, empty and read-only arrays take other paths, and the loops must hold for every size.", "anchors": ["cython/bempp/core/utils/eigen.pyx:np_to_eigen_matrix_float64", "cython/bempp/core/utils/eigen.pyx:np_to_eigen_vector_complex128", "cython/bempp/core/utils/eigen.pyx:eigen_matrix_to_np_float64", "cython/bempp/core/utils/eigen.pyx:eigen_vector_to_np_float64", "cython/bempp/core/utils/py_utils.hpp:copy_buf_to_mat", "cython/bempp/core/utils/py_utils.hpp:copy_buf_to_vec"]}
{"id": "C123", "title": "Memory of discrete operators", "statement": "`memory` of an operator built from assembled discrete operators by sums, products, scalings and inverses is the sum of the sizes of the distinct objects that occur in it, each counted once; it does not depend on how they are combined or in which order the set of objects is enumerated, and the memory of a sum is between that of an operand and that of both together.", "quantifier": "all trees of sums, products, scalings and inverses over all collections of dense, sparse and H-matrix operators with any sharing, all sizes and all orders of enumeration", "why_tests_cant": "Tests look at single operators; double counting of shared operands, or an operator whose collection of objects is of another type, shows only in combinations.", "anchors": ["python/bempp/api/assembly/discrete_boundary_operator.py:memory", "python/bempp/api/assembly/discrete_boundary_operator.py:elementary_operators", "python/bempp/api/assembly/discrete_boundary_operator.py:_memory", "python/bempp/api/hmat/hmatrix_interface.py:mem_size"]}
{"id": "C124", "title": "VTK files", "statement": "Exporting a grid with data to VTK writes one file for each time step, and a reader of the VTK format finds in it the vertices, the triangles, the time and, for every field of one or three components, the real and imaginary values on the cells and points, under the descriptions of the data or default names; missing arrays raise an exception.", "quantifier": "all grids, all lists of real and complex data with any number of time steps, all descriptions and file names", "why_tests_cant": "Tests do not read VTK files back; the layout of the file depends on the numbers of points, cells, fields, components and time steps, and the names on what was written before.", "anchors": ["python/bempp/api/file_interfaces/vtk.py:export_data_sets", "python/bempp/api/file_interfaces/vtk.py:write_time_step", "python/bempp/api/file_interfaces/vtk.py:write_data_field", "python/bempp/api/file_interfaces/general_interface.py:GridDataSet"]}
{"id": "C125", "title": "Logging", "statement": "After any history of enabling console and file logging, setting levels and logging messages, every message whose level is high enough has appeared, in order, exactly once on the console, if it has been enabled, and in every file that has been enabled; functions that are timed return and raise what they do without timing.", "quantifier": "all histories of calls with all levels, file names and messages; all functions and arguments", "why_tests_cant": "Tests run with one logging setup; duplicated handlers and levels depend on the history of the session.", "anchors": ["python/bempp/api/utils/logging.py:log", "python/bempp/api/utils/logging.py:enable_console_logging", "python/bempp/api/utils/logging.py:enable_file_logging", "python/bempp/api/utils/logging.py:set_logging_level", "python/bempp/api/utils/logging.py:timeit"]}
{"id": "C126", "title": "Data types of blocked operators", "statement": "The data type of a blocked discrete operator, and of the result of applying it to a vector, is the least double precision type that holds every number of all blocks, factors and the vector, so that no imaginary part is lost and nothing is rounded to single precision, in whatever order the parts come; vectors made from lists of grid functions have the least type that holds all their numbers.", "quantifier": "all grids of blocks (empty ones included) of all types, all sums, products and scalings of blocked operators, all vectors and lists", "why_tests_cant": "Tests use float64 and complex128 blocks in one arrangement.", "anchors": ["python/bempp/api/utils/data_types.py:check_type", "python/bempp/api/utils/data_types.py:combined_type", "python/bempp/api/assembly/blocked_operator.py:BlockedDiscreteOperator", "python/bempp/api/assembly/blocked_operator.py:coefficients_of_grid_function_list"]}
{"id": "C127", "title": "Exported data of grid functions", "statement": "Exporting grid functions, or series of them, with any of the documented transformations gives the writer of the file format, for every series, time step, component and every vertex or element, the transformed value of the function at that point; anything that cannot be exported is refused with an exception; visualising a function shows it.", "quantifier": "all grids, all series of functions of all types and numbers of components, all transformations, both places of evaluation, all options", "why_tests_cant": "Tests export one scalar function without a transformation.", "anchors": ["python/bempp/api/file_interfaces/general_interface.py:export", "python/bempp/api/file_interfaces/general_interface.py:transform_array", "python/bempp/api/file_interfaces/general_interface.py:Data", "python/bempp/api/file_interfaces/general_interface.py:bempp_object_to_grid_data_set", "python/bempp/api/external/viewers.py:visualize"]}
