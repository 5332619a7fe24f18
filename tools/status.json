{
 "C06": [
  "partial",
  "False as stated (C06_..._counterexample): the size test changes only a local copy of the flag. Proved: oversized admissible leaves occur only where a cluster is a leaf; full bound in the square case with minBlockSize < maxBlockSize."
 ],
 "C08": [
  "partial",
  "False as stated (counterexample): the flag is evaluated on the parent's clusters. Proved: what the flag is, and soundness for inherited admissibility functions."
 ],
 "C54": [
  "partial",
  "False as stated for non-positive coordinates (counterexample). Proved when all upper bounds are at least numeric_limits::min()."
 ],
 "C14": [
  "partial",
  "False as stated (two counterexamples): reset/initialize do not clear m_myLeafs, so a second initialize doubles apply and apply after reset throws. Proved: the stored blocks are replaced and reset reports uninitialised, after any history."
 ],
 "C17": [
  "partial",
  "False as stated (counterexample for every block beyond the cutoff): compressBlockImpl is called unconditionally at the end. Proved: within the cutoff the stored block is the compressor's."
 ],
 "C21": [
  "partial",
  "False on more than one process (counterexample: throws out_of_range). Proved for one process, any tree, any representing blocks."
 ],
 "C26": [
  "partial",
  "False as stated for three or more levels (counterexample: the interaction of two leaves is lost because the constructor stores ancestors one level off). Proved: for all octrees of at most two levels, and for any octree whose isEmpty is false for the ancestors of the target leaf."
 ],
 "C27": [
  "partial",
  "False as stated (counterexample): ancestors are inserted one level off. Proved: leaves with elements are reported non-empty at the leaf level; what is stored at the other levels; zero levels is undefined behaviour."
 ],
 "C30": [
  "partial",
  "closedDomain proved in full. openDomain proved when no facet has more than 256 in-domain neighbours; false beyond (counterexample: the neighbour counter is an unsigned char)."
 ],
 "C57": [
  "partial",
  "False for refined grids (counterexample): the entity counts come from the level-0 view. Proved when the counts of the two views agree."
 ],
 "C35": [
  "partial",
  "false as stated: the grid is published before its son map is filled (counterexample trace); proved: built once, complete pair for calls through the lock and calls that start after completion"
 ],
 "C37": [
  "partial",
  "false as stated: any non-zero number of crossings counts as inside (counterexample: tetrahedron on its tip); proved: exact characterisation of the ray test and of the result, odd parity for at most one crossing"
 ],
 "C40": [
  "partial",
  "False as stated on proper segments (C40_counterexample_segment): flatLocalDofCount() returns the number of elements of the grid, so the sparse mapping throws. Proved: the dof maps for every segment, and that the mapping can be built iff the segment contains every element."
 ],
 "C42": [
  "partial",
  "False as stated in strict mode when an element of the segment has an excluded vertex (counterexample with openDomain). Proved in non-strict mode and in strict mode when the segment contains the vertices of its elements."
 ],
 "C43": [
  "partial",
  "False as stated at edges with three or more neighbouring elements (counterexample). Proved for every mesh: dof maps, which edge owns each dof, signs and magnitude; at most two with opposite signs on meshes whose edges have at most two neighbours."
 ],
 "C47": [
  "partial",
  "False for complex local matrices (C47_counterexample_imaginary): the sparse mode keeps only real parts; complex basis functions throw. Proved: dense entries for every operator, sparse = dense when the weighted local matrices are fixed by taking real parts."
 ],
 "C22": [
  "proved",
  "Sparse terms are not modelled (the only caller passes none)."
 ],
 "C52": [
  "partial",
  "Proved for integrals that do not depend on the nominal distance; C52_counterexample_distance shows the claim is false when the quadrature rule is chosen by it (dense assembly passes none, H-matrix assembly the cluster distance). Single process; floating-point rounding not modelled."
 ],
 "C53": [
  "partial",
  "Blocks and geometry proved for every number of components; the volumes of rows are out of bounds for two or more components (C53_counterexample_volumes), proved for one component. Equality with the dense operator for integrals that do not depend on the nominal distance."
 ],
 "C49": [
  "proved",
  "Steps on the tbb concurrent map are atomic; each step of get is interleaved arbitrarily with other threads."
 ],
 "C48": [
  "partial",
  "False as stated for mode CONJUGATE (C48_counterexample_conjugate, C48_conjugate_transposes): isTransposed tests m_trans & 3, so CONJUGATE behaves as a transposed operator. Proved for the other modes, real and complex."
 ],
 "C50": [
  "partial",
  "False as stated (three counterexamples): equal ids at different addresses are not shared (the hash is that of the address); overlapping calls can return null; aliveOperators() is always empty. Proved: soundness of non-null results and wait-freedom under every interleaving, and the full sharing/assembly behaviour per id object for every history of non-overlapping calls and releases."
 ],
 "C62": [
  "proved",
  "Two different triangles with the same corners in different orders trip an assert (C62_counterexample_permuted); grids made by the grid factory have none unless the user supplies a duplicate triangle. Quadrilaterals: only C62_same."
 ],
 "C63": [
  "proved",
  "Equal thresholds (and an empty list of ranges) are undefined behaviour (C63_counterexample_equal_thresholds). Real arithmetic."
 ],
 "C66": [
  "partial",
  "False as stated for one kernel and several transformations in the general implementation (C66_counterexample_single_kernel: the integrand functor reads past the kernels; it is what tensor-product rules with complex basis functions and a real kernel use). Proved in all other cases. Exact arithmetic."
 ],
 "C67": [
  "proved",
  "Rules without points leave the results untouched (C67_counterexample_no_points; the code has a TODO). OpenCL variants are not modelled."
 ],
 "C68": [
  "partial",
  "False for segments: the barycentric spaces ignore the segment they are given (C68_counterexample_segment). Proved for the whole grid."
 ],
 "C69": [
  "partial",
  "Proved for the whole grid without edges shared by three or more elements; false otherwise: the barycentric spaces ignore the segment (C69_counterexample_segment) and give no dof to junction edges (C69_counterexample_junction)."
 ],
 "C71": [
  "proved",
  "The normals computed for curves in the plane are not covered: they are not orthogonal to the curve (C71_counterexample_plane)."
 ],
 "C74": [
  "proved",
  "Two defects, stated and proved: reading past the table at the end of its range (C74_counterexample_end; not reached by operators because of the factor 1.1), and no construction for ranges shorter than a cell (C74_counterexample_short)."
 ],
 "C75": [
  "proved",
  "Decimal literals at their decimal values; rounding to double is not modelled. Orders beyond the tables: C75_counterexample_order."
 ],
 "C78": [
  "partial",
  "False as stated if the callable raises (C78_counterexample_exception: use after free) or leaves components unassigned (C78_counterexample_stale). Proved: references and values for callables that do neither."
 ],
 "C81": [
  "partial",
  "Algebra, types, as_matrix and products proved for all expressions. The code violates the size checks in two cases (dense sums are broadcast, zero operators accept any vector) and inverses of one-row sparse operators cannot be applied: counterexamples proved."
 ],
 "C82": [
  "partial",
  "Proved for all permitted expressions; the code violates the claim for transposed wrappers, real wrappers' conjugates, complex factors, zero operators and rmatvec of sparse, nonlocal and complex dense operators: counterexamples proved."
 ],
 "C83": [
  "proved",
  "Right-hand sides with at least two entries, as the claim says; for one entry see C81_counterexample_one."
 ],
 "C84": [
  "partial",
  "Histories without recompute and matrices of programs without transposes proved in full; with transposes for permitted expressions (C82). recompute=True of a composite operator re-uses the cached forms of its operands: counterexample; recomputing all operators in order of construction proved right."
 ],
 "C85": [
  "partial",
  "Histories proved except for projections(E) with E other than dual_space while the representation is dual, where the code is wrong (counterexample); integrate fails for complex and vector-valued functions (counterexample)."
 ],
 "C86": [
  "partial",
  "Action, blocks, as_matrix and constructor proved in full; refusal of mismatched operators proved except where NumPy broadcasts, and of wrong arguments for vectors (counterexamples for the rest)."
 ],
 "C87": [
  "partial",
  "Partial: products with, and strong forms of, operators that are not square are refused by the code."
 ],
 "C91": [
  "partial",
  "proved for operators not assembled as sparse matrices; sparse ones are refused and compute_lu_factors never works, both shown as counterexamples"
 ],
 "C92": [
  "proved",
  "for grids in which no edge belongs to more than two elements; C92_counterexample_three shows that this is needed"
 ],
 "C93": [
  "proved",
  "for data sets handed to the Gmsh exporter (one set; binary files with data are described by C93_data but cannot be imported); the counterexamples show what export(grid=...), several sets and binary data lose"
 ],
 "C94": [
  "proved",
  "complex data with at least one array and finite imaginary parts; the counterexamples show both are needed"
 ],
 "C95": [
  "proved",
  "integrals are exact, no space has exactly one function (C83); wave numbers enter as the squared factor"
 ],
 "C96": [
  "proved",
  "grids that are oriented surfaces; putDofsOnBoundaries is false, as in the constructors used"
 ],
 "C97": [
  "proved",
  "exact real arithmetic"
 ],
 "C98": [
  "proved",
  "dense mode; triangles; orders for which there are rules; exact real arithmetic"
 ],
 "C99": [
  "proved",
  "triangles; the excluded orders and two grids with a common triangle are counterexamples"
 ],
 "C100": [
  "proved",
  "geometry statements; exact real arithmetic; meshing by Gmsh not modelled"
 ],
 "C101": [
  "proved",
  "geometry statements; exact real arithmetic; meshing by Gmsh not modelled"
 ],
 "C102": [
  "partial",
  "everything but the direction of the normals, which is inward at every level (C102_counterexample_orientation)"
 ],
 "C103": [
  "partial",
  "everything but shared points, which fails from level 2 on (C103_counterexample_points); proved at level 1"
 ],
 "C105": [
  "partial",
  "everything on one process but the memory size, which is only bounded from below (C105_counterexample_mem_size); on several processes data_block raises (C105_counterexample_processes)"
 ],
 "C106": [
  "partial",
  "a returned grid changes with later insertions into its factory (C106_counterexample_insert_after_finalize); the other parts are proved"
 ],
 "C107": [
  "partial",
  "the first insertion index lookup is wrong (C107_counterexample_first_lookup), get_mark never reports a mark (C107_counterexample_get_mark); the other parts are proved"
 ],
 "C109": [
  "partial",
  "the companion is wrong in strict mode (C109_counterexample_strict_companion) and positions of flat local dofs are permuted from order 2 on (C109_counterexample_flat_positions); the other parts are proved"
 ],
 "C110": [
  "partial",
  "an exception during assembly leaves the backend setting changed (C110_counterexample_backend); the trace, the dispatch and the caching are proved"
 ],
 "C111": [
  "partial",
  "the extents of empty 3d arrays are lost (C111_counterexample_empty_extents) and += does not reject different extents (C111_counterexample_add); memory safety, independence, elements of non-empty arrays, layout and slices are proved"
 ],
 "C112": [
  "partial",
  "negative orders (C112_counterexample_negative_order) and domains of barycentric kinds (C112_counterexample_domains) are accepted, the companion of RBC has no key (C112_counterexample_rbc); dofs, continuity, super space, equality and attributes are proved"
 ],
 "C113": [
  "partial",
  "infinite values are accepted and then ignored or fatal, reading from ParameterList() terminates the process, equal thresholds are undefined (C113_counterexamples, C113_context); everything else is proved for all histories"
 ],
 "C115": [
  "partial",
  "false for the vector spaces on the barycentric refinement (C115_counterexample_barycentric), where the box is that of one of the two triangles (C115_barycentric_vector_partial); proved for the other spaces"
 ],
 "C116": [
  "partial",
  "false for the scalar spaces on the barycentric refinement, for grids of dimension one and at folds of the surface (C116_counterexample_...); proved for continuous and discontinuous P1 and P0"
 ],
 "C118": [
  "partial",
  "integration fails for complex and vector-valued functions, the L2 norm on an element needs quadrature order 2, the relative error needs positive weights and a complex grid function for complex functions (C118_counterexample_...); the norms are proved for continuous piecewise linear (and constant) functions"
 ],
 "C119": [
  "partial",
  "complete for the Python spaces; for the concrete classes without the discontinuous linear functions on the barycentric refinement, segments and refinement levels are not compared, and vector spaces are not compatible with their barycentric versions (C119_counterexample_...)"
 ],
 "C121": [
  "partial",
  "without the dual-grid constants, the continuous linear functions on the barycentric grid, the discontinuous linear functions on a segment of the barycentric grid and the unit space, for which the promise is broken (C121_counterexample_...); the containment of the scalar functions is by kind of function (dof maps: C42, C109)"
 ],
 "C122": [
  "partial",
  "without empty arrays, read-only arrays that are not copied and complex arrays where a real matrix is asked for (C122_counterexample_...); at most 2^31 entries; NumPy and Cython as documented"
 ],
 "C123": [
  "partial",
  "without zero and rank-one operators (C123_counterexample_zero), blocked operators and inverses of SciPy matrices (C123_errors); sizes as rational numbers"
 ],
 "C124": [
  "partial",
  "for a single data set of fields with one or three components; names only for data without descriptions; the other cases are C124_counterexample_...; numbers as tokens"
 ],
 "C125": [
  "partial",
  "without files that are enabled several times (each time counts), the level of a second call that enables the console, and extended verbosity (C125_counterexample_...)"
 ],
 "C126": [
  "partial",
  "without scalings by numbers of type complex that have no imaginary part, for the attribute dtype (C126_counterexample_scaled), and rank-one operators of complex64 vectors"
 ],
 "C127": [
  "partial",
  "for series in which no function has a larger type than the first, with transformations that keep the number of components (C127_counterexample_series, C127_errors), and without the default mode of visualize (C127_counterexample_visualize)"
 ]
}