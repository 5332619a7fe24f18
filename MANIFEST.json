{
 "claims": [
  {
   "property": "C01",
   "status": "proved",
   "theorems": [
    "Verif.HMat.C01_dof_permutation_bijective"
   ],
   "note": ""
  },
  {
   "property": "C02",
   "status": "proved",
   "theorems": [
    "Verif.HMat.C02_ranges_tile"
   ],
   "note": ""
  },
  {
   "property": "C03",
   "status": "proved",
   "theorems": [
    "Verif.HMat.C03_leaf_size_and_balance",
    "Verif.HMat.C03_nonpositive_minBlockSize"
   ],
   "note": ""
  },
  {
   "property": "C04",
   "status": "proved",
   "theorems": [
    "Verif.HMat.C04_node_box_is_hull_of_range",
    "Verif.HMat.C04_child_box_inside_parent"
   ],
   "note": ""
  },
  {
   "property": "C05",
   "status": "proved",
   "theorems": [
    "Verif.HMat.C05_leaves_tile_matrix",
    "Verif.HMat.C05_leaves_inside_matrix"
   ],
   "note": ""
  },
  {
   "property": "C06",
   "status": "partial",
   "theorems": [
    "Verif.HMat.C06_oversized_admissible_leaf_counterexample",
    "Verif.HMat.C06_oversized_only_at_leaf_clusters_partial",
    "Verif.HMat.C06_square_case_partial"
   ],
   "note": "False as stated (C06_..._counterexample): the size test changes only a local copy of the flag. Proved: oversized admissible leaves occur only where a cluster is a leaf; full bound in the square case with minBlockSize < maxBlockSize."
  },
  {
   "property": "C07",
   "status": "proved",
   "theorems": [
    "Verif.HMat.C07_weak_separation",
    "Verif.HMat.C07_strong_separation"
   ],
   "note": ""
  },
  {
   "property": "C08",
   "status": "partial",
   "theorems": [
    "Verif.HMat.C08_flag_sound_for_monotone_partial",
    "Verif.HMat.C08_flag_is_parents_partial",
    "Verif.HMat.C08_flag_is_parents_counterexample"
   ],
   "note": "False as stated (counterexample): the flag is evaluated on the parent's clusters. Proved: what the flag is, and soundness for inherited admissibility functions."
  },
  {
   "property": "C09",
   "status": "proved",
   "theorems": [
    "Verif.HMat.C09_leafNodes_level_order",
    "Verif.HMat.C09_leafNodes_complete"
   ],
   "note": ""
  },
  {
   "property": "C10",
   "status": "proved",
   "theorems": [
    "Verif.HMat.C10_distance_symmetric",
    "Verif.HMat.C10_distance_is_set_distance",
    "Verif.HMat.C10_distance_zero_iff_common_point",
    "Verif.HMat.C10_distance_pos_of_disjoint"
   ],
   "note": ""
  },
  {
   "property": "C11",
   "status": "proved",
   "theorems": [
    "Verif.HMat.C11_apply_correct"
   ],
   "note": ""
  },
  {
   "property": "C12",
   "status": "proved",
   "theorems": [
    "Verif.HMat.C12_interleavings_agree",
    "Verif.HMat.C12_row_locks_result",
    "Verif.HMat.C12_row_locks_finish",
    "Verif.HMat.C12_row_locks_exclusive",
    "Verif.HMat.C12_row_locks_refine"
   ],
   "note": ""
  },
  {
   "property": "C13",
   "status": "proved",
   "theorems": [
    "Verif.HMat.C13_apply_any_number_of_processes",
    "Verif.HMat.C13_leaf_on_one_process"
   ],
   "note": ""
  },
  {
   "property": "C14",
   "status": "partial",
   "theorems": [
    "Verif.HMat.C14_reinit_replaces_blocks_partial",
    "Verif.HMat.C14_reinit_doubles_result_counterexample",
    "Verif.HMat.C14_apply_after_reset_counterexample"
   ],
   "note": "False as stated (two counterexamples): reset/initialize do not clear m_myLeafs, so a second initialize doubles apply and apply after reset throws. Proved: the stored blocks are replaced and reset reports uninitialised, after any history."
  },
  {
   "property": "C15",
   "status": "proved",
   "theorems": [
    "Verif.HMat.C15_permute_roundtrip"
   ],
   "note": ""
  },
  {
   "property": "C16",
   "status": "proved",
   "theorems": [
    "Verif.HMat.C16_lowrank_apply",
    "Verif.HMat.C16_lowrank_norm",
    "Verif.HMat.C16_block_apply"
   ],
   "note": ""
  },
  {
   "property": "C17",
   "status": "partial",
   "theorems": [
    "Verif.HMat.C17_cutoff_ineffective_counterexample",
    "Verif.HMat.C17_within_cutoff_partial"
   ],
   "note": "False as stated (counterexample for every block beyond the cutoff): compressBlockImpl is called unconditionally at the end. Proved: within the cutoff the stored block is the compressor's."
  },
  {
   "property": "C18",
   "status": "proved",
   "theorems": [
    "Verif.HMat.Aca.C18_aca_rank_and_calls",
    "Verif.HMat.Aca.C18_aca_first_cross",
    "Verif.HMat.Aca.C18_aca_blocks_fit"
   ],
   "note": ""
  },
  {
   "property": "C19",
   "status": "proved",
   "theorems": [
    "Verif.HMat.Aca.C19_aca_interpolates",
    "Verif.HMat.Aca.C19_aca_history_complete"
   ],
   "note": ""
  },
  {
   "property": "C20",
   "status": "proved",
   "theorems": [
    "Verif.HMat.Aca.C20_aca_norm_is_frobenius"
   ],
   "note": ""
  },
  {
   "property": "C21",
   "status": "partial",
   "theorems": [
    "Verif.HMat.C21_frobenius_norm_partial",
    "Verif.HMat.C21_norm_throws_on_two_processes_counterexample"
   ],
   "note": "False on more than one process (counterexample: throws out_of_range). Proved for one process, any tree, any representing blocks."
  },
  {
   "property": "C22",
   "status": "proved",
   "theorems": [
    "Verif.Assembly.C22_block_entries",
    "Verif.Assembly.C22_block_of_dense"
   ],
   "note": "Sparse terms are not modelled (the only caller passes none)."
  },
  {
   "property": "C23",
   "status": "proved",
   "theorems": [
    "Verif.Fmm.C23_morton_roundtrip",
    "Verif.Fmm.C23_deMorton_roundtrip",
    "Verif.Fmm.C23_morton_injective",
    "Verif.Fmm.C23_morton_rejects",
    "Verif.Fmm.C23_morton_interleaves"
   ],
   "note": ""
  },
  {
   "property": "C24",
   "status": "proved",
   "theorems": [
    "Verif.Fmm.C24_parent_halves",
    "Verif.Fmm.C24_children",
    "Verif.Fmm.C24_eight_children"
   ],
   "note": ""
  },
  {
   "property": "C25",
   "status": "proved",
   "theorems": [
    "Verif.Fmm.C25_neighbors",
    "Verif.Fmm.C25_neighbors_symmetric"
   ],
   "note": ""
  },
  {
   "property": "C26",
   "status": "partial",
   "theorems": [
    "Verif.Fmm.C26_cover_exactly_once_partial",
    "Verif.Fmm.C26_two_levels_partial",
    "Verif.Fmm.C26_counterexample"
   ],
   "note": "False as stated for three or more levels (counterexample: the interaction of two leaves is lost because the constructor stores ancestors one level off). Proved: for all octrees of at most two levels, and for any octree whose isEmpty is false for the ancestors of the target leaf."
  },
  {
   "property": "C27",
   "status": "partial",
   "theorems": [
    "Verif.Fmm.C27_leaves_nonempty_partial",
    "Verif.Fmm.C27_nodes_one_level_off_partial",
    "Verif.Fmm.C27_counterexample",
    "Verif.Fmm.C27_zero_levels_undefined"
   ],
   "note": "False as stated (counterexample): ancestors are inserted one level off. Proved: leaves with elements are reported non-empty at the leaf level; what is stored at the other levels; zero levels is undefined behaviour."
  },
  {
   "property": "C28",
   "status": "proved",
   "theorems": [
    "Verif.Fmm.C28_leaf_contains_point",
    "Verif.Fmm.C28_extended_box"
   ],
   "note": ""
  },
  {
   "property": "C29",
   "status": "proved",
   "theorems": [
    "Verif.Grid.C29_contains_total",
    "Verif.Grid.C29_union",
    "Verif.Grid.C29_intersection",
    "Verif.Grid.C29_complement",
    "Verif.Grid.C29_difference",
    "Verif.Grid.C29_closed",
    "Verif.Grid.C29_counterexample_invalid_index"
   ],
   "note": ""
  },
  {
   "property": "C30",
   "status": "partial",
   "theorems": [
    "Verif.Grid.C30_closedDomain",
    "Verif.Grid.C30_openDomain_partial",
    "Verif.Grid.C30_counterexample_counter"
   ],
   "note": "closedDomain proved in full. openDomain proved when no facet has more than 256 in-domain neighbours; false beyond (counterexample: the neighbour counter is an unsigned char)."
  },
  {
   "property": "C31",
   "status": "proved",
   "theorems": [
    "Verif.Grid.C31_defined",
    "Verif.Grid.C31_edges",
    "Verif.Grid.C31_element2Edges",
    "Verif.Grid.C31_edge2Elements",
    "Verif.Grid.C31_node2Elements",
    "Verif.Grid.C31_node2Edges"
   ],
   "note": ""
  },
  {
   "property": "C32",
   "status": "proved",
   "theorems": [
    "Verif.Grid.C32_ids_unique"
   ],
   "note": ""
  },
  {
   "property": "C33",
   "status": "proved",
   "theorems": [
    "Verif.Grid.C33_throws_iff",
    "Verif.Grid.C33_exact"
   ],
   "note": ""
  },
  {
   "property": "C34",
   "status": "proved",
   "theorems": [
    "Verif.Grid.C34_structure",
    "Verif.Grid.C34_sons",
    "Verif.Grid.C34_area",
    "Verif.Grid.C34_conforming",
    "Verif.Grid.C34_sides",
    "Verif.Grid.C34_tile"
   ],
   "note": ""
  },
  {
   "property": "C35",
   "status": "partial",
   "theorems": [
    "Verif.Conc.C35_counterexample_early_publication",
    "Verif.Conc.C35_partial",
    "Verif.Conc.C35_sequential_partial"
   ],
   "note": "false as stated: the grid is published before its son map is filled (counterexample trace); proved: built once, complete pair for calls through the lock and calls that start after completion"
  },
  {
   "property": "C36",
   "status": "proved",
   "theorems": [
    "Verif.Conc.C36_once",
    "Verif.Conc.C36_same",
    "Verif.Conc.C36_progress"
   ],
   "note": ""
  },
  {
   "property": "C37",
   "status": "partial",
   "theorems": [
    "Verif.Grid.C37_ray_partial",
    "Verif.Grid.C37_hit_partial",
    "Verif.Grid.C37_parity_partial",
    "Verif.Grid.C37_counterexample_parity"
   ],
   "note": "false as stated: any non-zero number of crossings counts as inside (counterexample: tetrahedron on its tip); proved: exact characterisation of the ray test and of the result, odd parity for at most one crossing"
  },
  {
   "property": "C38",
   "status": "proved",
   "theorems": [
    "Verif.Grid.C38_throws",
    "Verif.Grid.C38_structure",
    "Verif.Grid.C38_orientation",
    "Verif.Grid.C38_cover",
    "Verif.Grid.C38_disjoint"
   ],
   "note": ""
  },
  {
   "property": "C39",
   "status": "proved",
   "theorems": [
    "Verif.Space.C39_dof_maps",
    "Verif.Space.C39_no_orphan_dof",
    "Verif.Space.C39_rejects"
   ],
   "note": ""
  },
  {
   "property": "C40",
   "status": "partial",
   "theorems": [
    "Verif.Space.C40_dof_maps_partial",
    "Verif.Space.C40_mapping_iff_whole_partial",
    "Verif.Space.C40_counterexample_segment"
   ],
   "note": "False as stated on proper segments (C40_counterexample_segment): flatLocalDofCount() returns the number of elements of the grid, so the sparse mapping throws. Proved: the dof maps for every segment, and that the mapping can be built iff the segment contains every element."
  },
  {
   "property": "C41",
   "status": "proved",
   "theorems": [
    "Verif.Space.C41_mapping",
    "Verif.Space.C41_mapping_of_space"
   ],
   "note": ""
  },
  {
   "property": "C42",
   "status": "partial",
   "theorems": [
    "Verif.Space.C42_discontinuous_companion_partial",
    "Verif.Space.C42_counterexample_strict"
   ],
   "note": "False as stated in strict mode when an element of the segment has an excluded vertex (counterexample with openDomain). Proved in non-strict mode and in strict mode when the segment contains the vertices of its elements."
  },
  {
   "property": "C43",
   "status": "partial",
   "theorems": [
    "Verif.Space.C43_dof_maps",
    "Verif.Space.C43_weights",
    "Verif.Space.C43_at_most_two_partial",
    "Verif.Space.C43_counterexample_junction"
   ],
   "note": "False as stated at edges with three or more neighbouring elements (counterexample). Proved for every mesh: dof maps, which edge owns each dof, signs and magnitude; at most two with opposite signs on meshes whose edges have at most two neighbours."
  },
  {
   "property": "C44",
   "status": "proved",
   "theorems": [
    "Verif.DofGeo.C44_no_orphan_dof",
    "Verif.Space.C44_local_dofs",
    "Verif.Space.C44_dof_maps",
    "Verif.Space.C44_same_dof_same_point",
    "Verif.Space.C44_same_point_same_dof"
   ],
   "note": ""
  },
  {
   "property": "C45",
   "status": "proved",
   "theorems": [
    "Verif.Assembly.C45_dense_assembly",
    "Verif.Assembly.C45_schedule_independent",
    "Verif.Assembly.C45_potential_assembly"
   ],
   "note": ""
  },
  {
   "property": "C46",
   "status": "proved",
   "theorems": [
    "Verif.Assembly.C46_dense_block",
    "Verif.Assembly.C46_block_of_dense"
   ],
   "note": ""
  },
  {
   "property": "C47",
   "status": "partial",
   "theorems": [
    "Verif.Assembly.C47_local_dense",
    "Verif.Assembly.C47_sparse_eq_dense_partial",
    "Verif.Assembly.C47_complex_basis_throws",
    "Verif.Assembly.C47_counterexample_imaginary"
   ],
   "note": "False for complex local matrices (C47_counterexample_imaginary): the sparse mode keeps only real parts; complex basis functions throw. Proved: dense entries for every operator, sparse = dense when the weighted local matrices are fixed by taking real parts."
  },
  {
   "property": "C48",
   "status": "partial",
   "theorems": [
    "Verif.DiscreteOp.C48_apply_real_partial",
    "Verif.DiscreteOp.C48_apply_complex_partial",
    "Verif.DiscreteOp.C48_conjugate_transposes",
    "Verif.DiscreteOp.C48_counterexample_conjugate"
   ],
   "note": "False as stated for mode CONJUGATE (C48_counterexample_conjugate, C48_conjugate_transposes): isTransposed tests m_trans & 3, so CONJUGATE behaves as a transposed operator. Proved for the other modes, real and complex."
  },
  {
   "property": "C49",
   "status": "proved",
   "theorems": [
    "Verif.Cache.C49_transparent",
    "Verif.Cache.C49_progress",
    "Verif.Cache.C49_destroy",
    "Verif.Cache.C49_local_dof_lists",
    "Verif.Cache.C49_component_lists"
   ],
   "note": "Steps on the tbb concurrent map are atomic; each step of get is interleaved arbitrarily with other threads."
  },
  {
   "property": "C50",
   "status": "partial",
   "theorems": [
    "Verif.WeakCache.C50_sound_partial",
    "Verif.WeakCache.C50_wait_free",
    "Verif.WeakCache.C50_sequential_partial",
    "Verif.WeakCache.C50_reachable_cases",
    "Verif.WeakCache.C50_counterexample_equal_ids",
    "Verif.WeakCache.C50_counterexample_null",
    "Verif.WeakCache.C50_counterexample_alive_operators"
   ],
   "note": "False as stated (three counterexamples): equal ids at different addresses are not shared (the hash is that of the address); overlapping calls can return null; aliveOperators() is always empty. Proved: soundness of non-null results and wait-freedom under every interleaving, and the full sharing/assembly behaviour per id object for every history of non-overlapping calls and releases."
  },
  {
   "property": "C51",
   "status": "proved",
   "theorems": [
    "Verif.DiscreteOp.C51_columns",
    "Verif.DiscreteOp.C51_apply_is_asMatrix",
    "Verif.DiscreteOp.C51_dimension_checks",
    "Verif.DiscreteOp.C51_apply_matrix",
    "Verif.DiscreteOp.C51_apply_new",
    "Verif.DiscreteOp.C51_asMatrix",
    "Verif.DiscreteOp.C51_dense",
    "Verif.DiscreteOp.C51_dense_asMatrix",
    "Verif.DiscreteOp.C51_hmat",
    "Verif.DiscreteOp.C51_hmat_asMatrix",
    "Verif.DiscreteOp.C51_sparse_asMatrix"
   ],
   "note": ""
  },
  {
   "property": "C52",
   "status": "partial",
   "theorems": [
    "Verif.Assembly.C52_hmat_dense_partial",
    "Verif.Assembly.C52_unknown_algorithm",
    "Verif.Assembly.C52_counterexample_distance"
   ],
   "note": "Proved for integrals that do not depend on the nominal distance; C52_counterexample_distance shows the claim is false when the quadrature rule is chosen by it (dense assembly passes none, H-matrix assembly the cluster distance). Single process; floating-point rounding not modelled."
  },
  {
   "property": "C53",
   "status": "partial",
   "theorems": [
    "Verif.Assembly.C53_block_entries",
    "Verif.Assembly.C53_block_of_dense",
    "Verif.Assembly.C53_geometry",
    "Verif.Assembly.C53_counterexample_volumes",
    "Verif.Assembly.C53_test_volumes_partial",
    "Verif.Assembly.C53_dof_volumes"
   ],
   "note": "Blocks and geometry proved for every number of components; the volumes of rows are out of bounds for two or more components (C53_counterexample_volumes), proved for one component. Equality with the dense operator for integrals that do not depend on the nominal distance."
  },
  {
   "property": "C54",
   "status": "partial",
   "theorems": [
    "Verif.HMat.C54_merge_from_default_partial",
    "Verif.HMat.C54_negative_coordinates_counterexample"
   ],
   "note": "False as stated for non-positive coordinates (counterexample). Proved when all upper bounds are at least numeric_limits::min()."
  },
  {
   "property": "C55",
   "status": "proved",
   "theorems": [
    "Verif.Fmm.C55_leaf_entities"
   ],
   "note": ""
  },
  {
   "property": "C56",
   "status": "proved",
   "theorems": [
    "Verif.Fmm.C56_extended_cube_contains_element"
   ],
   "note": ""
  },
  {
   "property": "C57",
   "status": "partial",
   "theorems": [
    "Verif.Grid.C57_positiveX_partial",
    "Verif.Grid.C57_counterexample"
   ],
   "note": "False for refined grids (counterexample): the entity counts come from the level-0 view. Proved when the counts of the two views agree."
  },
  {
   "property": "C58",
   "status": "proved",
   "theorems": [
    "Verif.Grid.C58_markExcludedEntities"
   ],
   "note": ""
  },
  {
   "property": "C59",
   "status": "proved",
   "theorems": [
    "Verif.Grid.C59_view_consistent",
    "Verif.Grid.C59_facet_vertices"
   ],
   "note": ""
  },
  {
   "property": "C60",
   "status": "proved",
   "theorems": [
    "Verif.HMat.Aca.C60_aca_matrix"
   ],
   "note": ""
  },
  {
   "property": "C61",
   "status": "proved",
   "theorems": [
    "Verif.Quad.C61_regions",
    "Verif.Quad.C61_points",
    "Verif.Quad.C61_sum",
    "Verif.Quad.C61_exact",
    "Verif.Quad.C61_polynomials",
    "Verif.Quad.C61_regularised",
    "Verif.Quad.C61_integrable"
   ],
   "note": ""
  },
  {
   "property": "C62",
   "status": "proved",
   "theorems": [
    "Verif.Quad.C62_triangles",
    "Verif.Quad.C62_same",
    "Verif.Quad.C62_shared_positions",
    "Verif.Quad.C62_counterexample_permuted"
   ],
   "note": "Two different triangles with the same corners in different orders trip an assert (C62_counterexample_permuted); grids made by the grid factory have none unless the user supplies a duplicate triangle. Quadrilaterals: only C62_same."
  },
  {
   "property": "C63",
   "status": "proved",
   "theorems": [
    "Verif.Quad.C63_set_regular",
    "Verif.Quad.C63_set_regular_lengths",
    "Verif.Quad.C63_set_ranges",
    "Verif.Quad.C63_counterexample_equal_thresholds",
    "Verif.Quad.C63_descriptor",
    "Verif.Quad.C63_two_grids",
    "Verif.Quad.C63_triangle_size",
    "Verif.Quad.C63_symmetric",
    "Verif.Quad.C63_scale_invariant"
   ],
   "note": "Equal thresholds (and an empty list of ranges) are undefined behaviour (C63_counterexample_equal_thresholds). Real arithmetic."
  },
  {
   "property": "C64",
   "status": "proved",
   "theorems": [
    "Verif.LocalAsm.C64_cache",
    "Verif.LocalAsm.C64_list",
    "Verif.LocalAsm.C64_array",
    "Verif.LocalAsm.C64_single",
    "Verif.LocalAsm.C64_paired",
    "Verif.LocalAsm.C64_default_ready"
   ],
   "note": ""
  },
  {
   "property": "C65",
   "status": "proved",
   "theorems": [
    "Verif.Conc.C65_shared",
    "Verif.Conc.C65_no_leak",
    "Verif.Conc.C65_progress",
    "Verif.Conc.C65_stable"
   ],
   "note": ""
  },
  {
   "property": "C66",
   "status": "partial",
   "theorems": [
    "Verif.Integral.C66_nontensor",
    "Verif.Integral.C66_tensor",
    "Verif.Integral.C66_default_nontensor",
    "Verif.Integral.C66_default_tensor",
    "Verif.Integral.C66_agree_nontensor",
    "Verif.Integral.C66_real_basis",
    "Verif.Integral.C66_counterexample_single_kernel"
   ],
   "note": "False as stated for one kernel and several transformations in the general implementation (C66_counterexample_single_kernel: the integrand functor reads past the kernels; it is what tensor-product rules with complex basis functions and a real kernel use). Proved in all other cases. Exact arithmetic."
  },
  {
   "property": "C67",
   "status": "proved",
   "theorems": [
    "Verif.Integrator.C67_list",
    "Verif.Integrator.C67_basis_cache",
    "Verif.Integrator.C67_pairs",
    "Verif.Integrator.C67_wrong_length",
    "Verif.Integrator.C67_counterexample_no_points",
    "Verif.Integrator.C67_separable_entries",
    "Verif.Integrator.C67_separable_dofwise",
    "Verif.Integrator.C67_nonseparable_entries",
    "Verif.Integrator.C67_nonseparable_dofwise"
   ],
   "note": "Rules without points leave the results untouched (C67_counterexample_no_points; the code has a TODO). OpenCL variants are not modelled."
  },
  {
   "property": "C68",
   "status": "partial",
   "theorems": [
    "Verif.Space.C68_p1_continuous_partial",
    "Verif.Space.C68_p1_discontinuous_partial",
    "Verif.Space.C68_p0_partial",
    "Verif.Space.C68_linear_derivatives",
    "Verif.Space.C68_counterexample_segment"
   ],
   "note": "False for segments: the barycentric spaces ignore the segment they are given (C68_counterexample_segment). Proved for the whole grid."
  },
  {
   "property": "C70",
   "status": "proved",
   "theorems": [
    "Verif.Space.C70_dual_cells"
   ],
   "note": ""
  },
  {
   "property": "C69",
   "status": "partial",
   "theorems": [
    "Verif.Space.C69_vector_partial",
    "Verif.Space.C69_counterexample_junction",
    "Verif.Space.C69_counterexample_segment"
   ],
   "note": "Proved for the whole grid without edges shared by three or more elements; false otherwise: the barycentric spaces ignore the segment (C69_counterexample_segment) and give no dof to junction edges (C69_counterexample_junction)."
  },
  {
   "property": "C71",
   "status": "proved",
   "theorems": [
    "Verif.Shape.C71_integration_element",
    "Verif.Shape.C71_normal",
    "Verif.Shape.C71_surface_grad",
    "Verif.Shape.C71_hcurl_value",
    "Verif.Shape.C71_hdiv_value",
    "Verif.Shape.C71_surface_div",
    "Verif.Shape.C71_hcurl_surface_curl",
    "Verif.Shape.C71_surface_curl",
    "Verif.Shape.C71_rotation",
    "Verif.Shape.C71_dependencies",
    "Verif.Shape.C71_value_times_normal",
    "Verif.Shape.C71_counterexample_plane"
   ],
   "note": "The normals computed for curves in the plane are not covered: they are not orthogonal to the curve (C71_counterexample_plane)."
  },
  {
   "property": "C72",
   "status": "proved",
   "theorems": [
    "Verif.Space.C72_normal_continuity",
    "Verif.Space.C72_boundary",
    "Verif.Space.C72_tangential_continuity",
    "Verif.Space.C72_rwg_flux"
   ],
   "note": ""
  },
  {
   "property": "C73",
   "status": "proved",
   "theorems": [
    "Verif.Kernel.C73_single_layer",
    "Verif.Kernel.C73_double_layer",
    "Verif.Kernel.C73_hypersingular",
    "Verif.Kernel.C73_gradients",
    "Verif.Kernel.C73_equation",
    "Verif.Kernel.C73_pairs",
    "Verif.Kernel.C73_scale",
    "Verif.Kernel.C73_far_field",
    "Verif.Kernel.C73_declarations",
    "Verif.Kernel.C73_counterexample_assertion"
   ],
   "note": ""
  },
  {
   "property": "C74",
   "status": "proved",
   "theorems": [
    "Verif.Kernel.C74_interpolation",
    "Verif.Kernel.C74_error",
    "Verif.Kernel.C74_max_distance",
    "Verif.Kernel.C74_counterexample_end",
    "Verif.Kernel.C74_counterexample_short",
    "Verif.Kernel.C74_exponential",
    "Verif.Kernel.C74_kernels",
    "Verif.Kernel.C74_operator"
   ],
   "note": "Two defects, stated and proved: reading past the table at the end of its range (C74_counterexample_end; not reached by operators because of the factor 1.1), and no construction for ranges shorter than a cell (C74_counterexample_short)."
  },
  {
   "property": "C75",
   "status": "proved",
   "theorems": [
    "Verif.SingleQuad.C75_triangle",
    "Verif.SingleQuad.C75_quadrangle",
    "Verif.SingleQuad.C75_counterexample_order",
    "Verif.SingleQuad.C75_other",
    "Verif.SingleQuad.C75_points",
    "Verif.SingleQuad.C75_weights"
   ],
   "note": "Decimal literals at their decimal values; rounding to double is not modelled. Orders beyond the tables: C75_counterexample_order."
  },
  {
   "property": "C76",
   "status": "proved",
   "theorems": [
    "Verif.LocalOps.C76_elements",
    "Verif.LocalOps.C76_integrands",
    "Verif.LocalOps.C76_identity",
    "Verif.LocalOps.C76_mass",
    "Verif.LocalOps.C76_laplace_beltrami",
    "Verif.LocalOps.C76_raviart_thomas",
    "Verif.LocalOps.C76_symmetry"
   ],
   "note": ""
  },
  {
   "property": "C77",
   "status": "proved",
   "theorems": [
    "Verif.GridFun.C77_elements",
    "Verif.GridFun.C77_scalar",
    "Verif.GridFun.C77_vector",
    "Verif.GridFun.C77_dimension",
    "Verif.GridFun.C77_linear",
    "Verif.GridFun.C77_mass",
    "Verif.GridFun.C77_projection"
   ],
   "note": ""
  },
  {
   "property": "C78",
   "status": "partial",
   "theorems": [
    "Verif.PyFun.C78_references_partial",
    "Verif.PyFun.C78_counterexample_exception",
    "Verif.PyFun.C78_values",
    "Verif.PyFun.C78_counterexample_stale"
   ],
   "note": "False as stated if the callable raises (C78_counterexample_exception: use after free) or leaves components unassigned (C78_counterexample_stale). Proved: references and values for callables that do neither."
  },
  {
   "property": "C79",
   "status": "proved",
   "theorems": [
    "Verif.Pot.C79_rule",
    "Verif.Pot.C79_points",
    "Verif.Pot.C79_elements",
    "Verif.Pot.C79_grid"
   ],
   "note": ""
  },
  {
   "property": "C80",
   "status": "proved",
   "theorems": [
    "Verif.Pot.C80_succeeds",
    "Verif.Pot.C80_errors",
    "Verif.Pot.C80_scalar",
    "Verif.Pot.C80_maxwell",
    "Verif.Pot.C80_gradient",
    "Verif.Pot.C80_far_field",
    "Verif.Pot.C80_equation",
    "Verif.Pot.C80_uniform"
   ],
   "note": ""
  },
  {
   "property": "C81",
   "status": "partial",
   "theorems": [
    "Verif.PyOp.C81_expressions",
    "Verif.PyOp.C81_types",
    "Verif.PyOp.C81_as_matrix",
    "Verif.PyOp.C81_product_mismatch",
    "Verif.PyOp.C81_sum_mismatch_partial",
    "Verif.PyOp.C81_size_partial",
    "Verif.PyOp.C81_counterexample_broadcast",
    "Verif.PyOp.C81_counterexample_zero",
    "Verif.PyOp.C81_counterexample_one"
   ],
   "note": "Algebra, types, as_matrix and products proved for all expressions. The code violates the size checks in two cases (dense sums are broadcast, zero operators accept any vector) and inverses of one-row sparse operators cannot be applied: counterexamples proved."
  },
  {
   "property": "C82",
   "status": "partial",
   "theorems": [
    "Verif.PyOp.C82_expressions_partial",
    "Verif.PyOp.C82_rmatvec_partial",
    "Verif.PyOp.C82_wrapper",
    "Verif.PyOp.C82_wrapper_modes_partial",
    "Verif.PyOp.C82_counterexample_transposed",
    "Verif.PyOp.C82_counterexample_conjugate",
    "Verif.PyOp.C82_counterexample_scaled",
    "Verif.PyOp.C82_counterexample_zero",
    "Verif.PyOp.C82_counterexample_rmatvec",
    "Verif.PyOp.C82_counterexample_dense"
   ],
   "note": "Proved for all permitted expressions; the code violates the claim for transposed wrappers, real wrappers' conjugates, complex factors, zero operators and rmatvec of sparse, nonlocal and complex dense operators: counterexamples proved."
  },
  {
   "property": "C83",
   "status": "proved",
   "theorems": [
    "Verif.PyOp.C83_constructible",
    "Verif.PyOp.C83_solution"
   ],
   "note": "Right-hand sides with at least two entries, as the claim says; for one entry see C81_counterexample_one."
  },
  {
   "property": "C84",
   "status": "partial",
   "theorems": [
    "Verif.PyOp.C84_histories",
    "Verif.PyOp.C84_matrices",
    "Verif.PyOp.C84_matrices_partial",
    "Verif.PyOp.C84_formula_unique",
    "Verif.PyOp.C84_recompute_partial",
    "Verif.PyOp.C84_recompute_elementary",
    "Verif.PyOp.C84_counterexample_recompute"
   ],
   "note": "Histories without recompute and matrices of programs without transposes proved in full; with transposes for permitted expressions (C82). recompute=True of a composite operator re-uses the cached forms of its operands: counterexample; recomputing all operators in order of construction proved right."
  },
  {
   "property": "C85",
   "status": "partial",
   "theorems": [
    "Verif.PyOp.C85_histories_partial",
    "Verif.PyOp.C85_counterexample_projections",
    "Verif.PyOp.C85_counterexample_values",
    "Verif.PyOp.C85_counterexample_dual_space",
    "Verif.PyOp.C85_counterexample_length",
    "Verif.PyOp.C85_composition",
    "Verif.PyOp.C85_norm",
    "Verif.PyOp.C85_integrate_partial",
    "Verif.PyOp.C85_counterexample_integrate"
   ],
   "note": "Histories proved except for projections(E) with E other than dual_space while the representation is dual, where the code is wrong (counterexample); integrate fails for complex and vector-valued functions (counterexample)."
  },
  {
   "property": "C86",
   "status": "partial",
   "theorems": [
    "Verif.PyOp.C86_constructor",
    "Verif.PyOp.C86_positions",
    "Verif.PyOp.C86_expressions",
    "Verif.PyOp.C86_blocks",
    "Verif.PyOp.C86_as_matrix",
    "Verif.PyOp.C86_vector_length",
    "Verif.PyOp.C86_sum_mismatch_partial",
    "Verif.PyOp.C86_product_mismatch_partial",
    "Verif.PyOp.C86_example",
    "Verif.PyOp.C86_counterexample_extra_rows",
    "Verif.PyOp.C86_counterexample_broadcast"
   ],
   "note": "Action, blocks, as_matrix and constructor proved in full; refusal of mismatched operators proved except where NumPy broadcasts, and of wrong arguments for vectors (counterexamples for the rest)."
  },
  {
   "property": "C87",
   "status": "partial",
   "theorems": [
    "Verif.PyOp.C87_assignments",
    "Verif.PyOp.C87_incomplete",
    "Verif.PyOp.C87_histories_partial",
    "Verif.PyOp.C87_product_nonsquare",
    "Verif.PyOp.C87_matrices",
    "Verif.PyOp.C87_apply",
    "Verif.PyOp.C87_apply_length",
    "Verif.PyOp.C87_example",
    "Verif.PyOp.C87_counterexample_stale",
    "Verif.PyOp.C87_counterexample_spaces"
   ],
   "note": "Partial: products with, and strong forms of, operators that are not square are refused by the code."
  },
  {
   "property": "C88",
   "status": "proved",
   "theorems": [
    "Verif.PyOp.C88_boundary",
    "Verif.PyOp.C88_exact",
    "Verif.PyOp.C88_refused",
    "Verif.PyOp.C88_iterations",
    "Verif.PyOp.C88_blocked",
    "Verif.PyOp.C88_roundtrip",
    "Verif.PyOp.C88_right_hand_sides",
    "Verif.PyOp.C88_example",
    "Verif.PyOp.C88_counterexample_extra",
    "Verif.PyOp.C88_counterexample_rhs",
    "Verif.PyOp.C88_counterexample_length"
   ],
   "note": ""
  },
  {
   "property": "C89",
   "status": "proved",
   "theorems": [
    "Verif.PyOp.C89_coefficients",
    "Verif.PyOp.C89_square_root",
    "Verif.PyOp.C89_converges",
    "Verif.PyOp.C89_order",
    "Verif.PyOp.C89_default",
    "Verif.PyOp.C89_dtn",
    "Verif.PyOp.C89_ntd",
    "Verif.PyOp.C89_modes",
    "Verif.PyOp.C89_example",
    "Verif.PyOp.C89_counterexample_undamped"
   ],
   "note": ""
  },
  {
   "property": "C90",
   "status": "proved",
   "theorems": [
    "Verif.PyOp.C90_algebra",
    "Verif.PyOp.C90_refused",
    "Verif.PyOp.C90_constructors",
    "Verif.PyOp.C90_counterexample_logger",
    "Verif.PyOp.C90_counterexample_space",
    "Verif.PyOp.C90_example"
   ],
   "note": ""
  },
  {
   "property": "C91",
   "status": "partial",
   "theorems": [
    "Verif.PyOp.C91_lu_partial",
    "Verif.PyOp.C91_example",
    "Verif.PyOp.C91_counterexample_sparse",
    "Verif.PyOp.C91_counterexample_factors"
   ],
   "note": "proved for operators not assembled as sparse matrices; sparse ones are refused and compute_lu_factors never works, both shown as counterexamples"
  },
  {
   "property": "C92",
   "status": "proved",
   "theorems": [
    "Verif.Refine.C92_terminates",
    "Verif.Refine.C92_refines",
    "Verif.Refine.C92_area",
    "Verif.Refine.C92_conforming",
    "Verif.Refine.C92_closed",
    "Verif.Refine.C92_again",
    "Verif.Refine.C92_view",
    "Verif.Refine.C92_example",
    "Verif.Refine.C92_counterexample_three",
    "Verif.Refine.C92_counterexample_marks",
    "Verif.Refine.C92_marks"
   ],
   "note": "for grids in which no edge belongs to more than two elements; C92_counterexample_three shows that this is needed"
  },
  {
   "property": "C93",
   "status": "proved",
   "theorems": [
    "Verif.Gmsh.C93_ascii",
    "Verif.Gmsh.C93_ascii_grid",
    "Verif.Gmsh.C93_binary_grid",
    "Verif.Gmsh.C93_unchanged",
    "Verif.Gmsh.C93_second_trip",
    "Verif.Gmsh.C93_terminates",
    "Verif.Gmsh.C93_example",
    "Verif.Gmsh.C93_counterexample_domains",
    "Verif.Gmsh.C93_counterexample_ids",
    "Verif.Gmsh.C93_counterexample_second_set",
    "Verif.Gmsh.C93_counterexample_binary_data",
    "Verif.Gmsh.C93_counterexample_blank_line",
    "Verif.Gmsh.C93_counterexample_vertex_zero",
    "Verif.Gmsh.C93_counterexample_no_tags",
    "Verif.Gmsh.C93_data",
    "Verif.Gmsh.C93_row_readable",
    "Verif.Gmsh.C93_row_readable_binary",
    "Verif.Gmsh.C93_integers",
    "Verif.Gmsh.C93_data_example"
   ],
   "note": "for data sets handed to the Gmsh exporter (one set; binary files with data are described by C93_data but cannot be imported); the counterexamples show what export(grid=...), several sets and binary data lose"
  },
  {
   "property": "C94",
   "status": "proved",
   "theorems": [
    "Verif.Json.C94_base64",
    "Verif.Json.C94_base64_noise",
    "Verif.Json.C94_base64_text",
    "Verif.Json.C94_grid",
    "Verif.Json.C94_data",
    "Verif.Json.C94_sets",
    "Verif.Json.C94_injective",
    "Verif.Json.C94_example_grid",
    "Verif.Json.C94_example",
    "Verif.Json.C94_example_base64",
    "Verif.Json.C94_counterexample_empty",
    "Verif.Json.C94_counterexample_infinite",
    "Verif.Json.C94_counterexample_element_ids",
    "Verif.Json.C94_counterexample_data_string"
   ],
   "note": "complex data with at least one array and finite imaginary parts; the counterexamples show both are needed"
  },
  {
   "property": "C95",
   "status": "proved",
   "theorems": [
    "Verif.PyOp.C95_projection_unique",
    "Verif.PyOp.C95_project",
    "Verif.PyOp.C95_project_subspaces",
    "Verif.PyOp.C95_layer",
    "Verif.PyOp.C95_hypersingular_direct",
    "Verif.PyOp.C95_hypersingular_slp",
    "Verif.PyOp.C95_hypersingular_slp_exact",
    "Verif.PyOp.C95_hypersingular_true",
    "Verif.PyOp.C95_hypersingular_agree",
    "Verif.PyOp.C95_pair_linear",
    "Verif.PyOp.C95_pair_dual",
    "Verif.PyOp.C95_pair_base",
    "Verif.PyOp.C95_pair_stabilised",
    "Verif.PyOp.C95_multitrace_linear",
    "Verif.PyOp.C95_multitrace_dual",
    "Verif.PyOp.C95_multitrace_target_linear",
    "Verif.PyOp.C95_multitrace_target_dual",
    "Verif.PyOp.C95_unknown_spaces",
    "Verif.PyOp.C95_multitrace_identity",
    "Verif.PyOp.C95_maxwell_field",
    "Verif.PyOp.C95_maxwell_multitrace",
    "Verif.PyOp.C95_efie_squared",
    "Verif.PyOp.C95_integral_operators",
    "Verif.PyOp.C95_histories",
    "Verif.PyOp.C95_example",
    "Verif.PyOp.C95_example_multitrace",
    "Verif.PyOp.C95_slp_space_matters"
   ],
   "note": "integrals are exact, no space has exactly one function (C83); wave numbers enter as the squared factor"
  },
  {
   "property": "C96",
   "status": "proved",
   "theorems": [
    "Verif.Space.C96_shared_sides",
    "Verif.Space.C96_basis",
    "Verif.Space.C96_normal_continuity",
    "Verif.Space.C96_tangential_continuity",
    "Verif.Space.C96_counterexample_orientation",
    "Verif.Space.C96_counterexample_surface"
   ],
   "note": "grids that are oriented surfaces; putDofsOnBoundaries is false, as in the constructors used"
  },
  {
   "property": "C97",
   "status": "proved",
   "theorems": [
    "Verif.Cheb.C97_nodes",
    "Verif.Cheb.C97_interpolation",
    "Verif.Cheb.C97_values",
    "Verif.Cheb.C97_children",
    "Verif.Cheb.C97_derivative",
    "Verif.Cheb.C97_derivative_3d",
    "Verif.Cheb.C97_counterexample_negative"
   ],
   "note": "exact real arithmetic"
  },
  {
   "property": "C98",
   "status": "proved",
   "theorems": [
    "Verif.Bio.C98_integrate_lists",
    "Verif.Bio.C98_integrate_pairs",
    "Verif.Bio.C98_integrators",
    "Verif.Bio.C98_rules",
    "Verif.Bio.C98_succeeds",
    "Verif.Bio.C98_forms"
   ],
   "note": "dense mode; triangles; orders for which there are rules; exact real arithmetic"
  },
  {
   "property": "C99",
   "status": "proved",
   "theorems": [
    "Verif.Bio.C99_regular",
    "Verif.Bio.C99_counterexample_outside",
    "Verif.Bio.C99_square",
    "Verif.Bio.C99_singular",
    "Verif.Bio.C99_nodes",
    "Verif.Bio.C99_forms",
    "Verif.Bio.C99_same",
    "Verif.Bio.C99_constants",
    "Verif.Bio.C99_counterexample_two_grids"
   ],
   "note": "triangles; the excluded orders and two grids with a common triangle are counterexamples"
  },
  {
   "property": "C100",
   "status": "proved",
   "theorems": [
    "Verif.Shapes.C100_pyramid",
    "Verif.Shapes.C100_outward",
    "Verif.Shapes.C100_words",
    "Verif.Shapes.C100_triangle",
    "Verif.Shapes.C100_counterclockwise"
   ],
   "note": "geometry statements; exact real arithmetic; meshing by Gmsh not modelled"
  },
  {
   "property": "C101",
   "status": "proved",
   "theorems": [
    "Verif.Shapes.C101_koch",
    "Verif.Shapes.C101_simple",
    "Verif.Shapes.C101_measures",
    "Verif.Shapes.C101_tip"
   ],
   "note": "geometry statements; exact real arithmetic; meshing by Gmsh not modelled"
  },
  {
   "property": "C102",
   "status": "partial",
   "theorems": [
    "Verif.Shapes.C102_menger_partial",
    "Verif.Shapes.C102_cells",
    "Verif.Shapes.C102_counterexample_orientation"
   ],
   "note": "everything but the direction of the normals, which is inward at every level (C102_counterexample_orientation)"
  },
  {
   "property": "C103",
   "status": "partial",
   "theorems": [
    "Verif.Shapes.C103_carpet_partial",
    "Verif.Shapes.C103_counterexample_points"
   ],
   "note": "everything but shared points, which fails from level 2 on (C103_counterexample_points); proved at level 1"
  },
  {
   "property": "C104",
   "status": "proved",
   "theorems": [
    "Verif.Shapes.C104_sphere",
    "Verif.Shapes.C104_nested",
    "Verif.Shapes.C104_counterexample_radius"
   ],
   "note": ""
  },
  {
   "property": "C105",
   "status": "partial",
   "theorems": [
    "Verif.HMat.C105_leaf_nodes",
    "Verif.HMat.C105_reassembled",
    "Verif.HMat.C105_counts",
    "Verif.HMat.C105_rank",
    "Verif.HMat.C105_compression_rate",
    "Verif.HMat.C105_mem_size_partial",
    "Verif.HMat.C105_counterexample_mem_size",
    "Verif.HMat.C105_counterexample_processes"
   ],
   "note": "everything on one process but the memory size, which is only bounded from below (C105_counterexample_mem_size); on several processes data_block raises (C105_counterexample_processes)"
  },
  {
   "property": "C106",
   "status": "partial",
   "theorems": [
    "Verif.PyGrid.C106_view_data",
    "Verif.PyGrid.C106_from_element_data",
    "Verif.PyGrid.C106_clone",
    "Verif.PyGrid.C106_counterexample_clone_empty",
    "Verif.PyGrid.C106_counterexample_transposed",
    "Verif.PyGrid.C106_factory",
    "Verif.PyGrid.C106_factory_unchecked",
    "Verif.PyGrid.C106_factory_stable_partial",
    "Verif.PyGrid.C106_counterexample_insert_after_finalize",
    "Verif.PyGrid.C106_union",
    "Verif.PyGrid.C106_union_raises_iff",
    "Verif.PyGrid.C106_union_disjoint",
    "Verif.PyGrid.C106_counterexample_union_domains"
   ],
   "note": "a returned grid changes with later insertions into its factory (C106_counterexample_insert_after_finalize); the other parts are proved"
  },
  {
   "property": "C107",
   "status": "partial",
   "theorems": [
    "Verif.PyGrid.C107_insertion_lookup_partial",
    "Verif.PyGrid.C107_counterexample_first_lookup",
    "Verif.PyGrid.C107_from_index",
    "Verif.PyGrid.C107_vertex_matrix",
    "Verif.PyGrid.C107_edge_matrix",
    "Verif.PyGrid.C107_counterexample_degenerate",
    "Verif.PyGrid.C107_marks",
    "Verif.PyGrid.C107_counterexample_get_mark",
    "Verif.PyGrid.C107_counterexample_clear"
   ],
   "note": "the first insertion index lookup is wrong (C107_counterexample_first_lookup), get_mark never reports a mark (C107_counterexample_get_mark); the other parts are proved"
  },
  {
   "property": "C108",
   "status": "proved",
   "theorems": [
    "Verif.PyGrid.C108_structure",
    "Verif.PyGrid.C108_cover",
    "Verif.PyGrid.C108_orientation",
    "Verif.PyGrid.C108_raises_iff"
   ],
   "note": ""
  },
  {
   "property": "C109",
   "status": "partial",
   "theorems": [
    "Verif.Space.C109_discontinuous_dof_maps",
    "Verif.Space.C109_discontinuous_positions",
    "Verif.Space.C109_discontinuous_errors",
    "Verif.Space.C109_matching_space",
    "Verif.Space.C109_companion_partial",
    "Verif.Space.C109_flat_positions_partial",
    "Verif.Space.C109_counterexample_strict_companion",
    "Verif.Space.C109_counterexample_flat_positions",
    "Verif.Space.C109_constants"
   ],
   "note": "the companion is wrong in strict mode (C109_counterexample_strict_companion) and positions of flat local dofs are permuted from order 2 on (C109_counterexample_flat_positions); the other parts are proved"
  },
  {
   "property": "C110",
   "status": "partial",
   "theorems": [
    "Verif.Fenics.C110_trace",
    "Verif.Fenics.C110_dispatch",
    "Verif.Fenics.C110_weak_form_partial",
    "Verif.Fenics.C110_counterexample_backend",
    "Verif.Fenics.C110_length_checked"
   ],
   "note": "an exception during assembly leaves the backend setting changed (C110_counterexample_backend); the trace, the dispatch and the caching are proved"
  },
  {
   "property": "C111",
   "status": "partial",
   "theorems": [
    "Verif.Arrays.C111_layout",
    "Verif.Arrays.C111_memory_safe",
    "Verif.Arrays.C111_no_leak",
    "Verif.Arrays.C111_independent",
    "Verif.Arrays.C111_elements_partial",
    "Verif.Arrays.C111_slices",
    "Verif.Arrays.C111_counterexample_empty_extents",
    "Verif.Arrays.C111_counterexample_add"
   ],
   "note": "the extents of empty 3d arrays are lost (C111_counterexample_empty_extents) and += does not reject different extents (C111_counterexample_add); memory safety, independence, elements of non-empty arrays, layout and slices are proved"
  },
  {
   "property": "C112",
   "status": "partial",
   "theorems": [
    "Verif.PySpace.C112_accepts",
    "Verif.PySpace.C112_rejects_partial",
    "Verif.PySpace.C112_counterexample_negative_order",
    "Verif.PySpace.C112_counterexample_domains",
    "Verif.PySpace.C112_P",
    "Verif.PySpace.C112_DP",
    "Verif.PySpace.C112_edges",
    "Verif.PySpace.C112_super_space",
    "Verif.PySpace.C112_equal_arguments",
    "Verif.PySpace.C112_equal",
    "Verif.PySpace.C112_attributes",
    "Verif.PySpace.C112_companion",
    "Verif.PySpace.C112_barycentric",
    "Verif.PySpace.C112_hdiv_partial",
    "Verif.PySpace.C112_counterexample_rbc"
   ],
   "note": "negative orders (C112_counterexample_negative_order) and domains of barycentric kinds (C112_counterexample_domains) are accepted, the companion of RBC has no key (C112_counterexample_rbc); dofs, continuity, super space, equality and attributes are proved"
  },
  {
   "property": "C113",
   "status": "partial",
   "theorems": [
    "Verif.Params.C113_read",
    "Verif.Params.C113_read_global",
    "Verif.Params.C113_accepted",
    "Verif.Params.C113_context",
    "Verif.Params.C113_evaluation_options",
    "Verif.Params.C113_hmat_options",
    "Verif.Params.C113_operator",
    "Verif.Params.C113_operator_succeeds",
    "Verif.Params.C113_counterexamples"
   ],
   "note": "infinite values are accepted and then ignored or fatal, reading from ParameterList() terminates the process, equal thresholds are undefined (C113_counterexamples, C113_context); everything else is proved for all histories"
  },
  {
   "property": "C114",
   "status": "proved",
   "theorems": [
    "Verif.Assembly.C114_singular_part",
    "Verif.Assembly.C114_agrees_with_dense",
    "Verif.Assembly.C114_different_grids"
   ],
   "note": ""
  },
  {
   "property": "C115",
   "status": "partial",
   "theorems": [
    "Verif.DofGeo.C115_default_boxes",
    "Verif.DofGeo.C115_p1_boxes",
    "Verif.DofGeo.C115_p0_boxes",
    "Verif.DofGeo.C115_p1_discontinuous_boxes",
    "Verif.DofGeo.C115_rwg_boxes",
    "Verif.DofGeo.C115_polynomial_boxes",
    "Verif.DofGeo.C115_counterexample_reference",
    "Verif.DofGeo.C115_bc_boxes",
    "Verif.DofGeo.C115_barycentric_vector_partial",
    "Verif.DofGeo.C115_counterexample_barycentric",
    "Verif.DofGeo.C115_weak_admissible_supports",
    "Verif.DofGeo.C115_strong_admissible_supports"
   ],
   "note": "false for the vector spaces on the barycentric refinement (C115_counterexample_barycentric), where the box is that of one of the two triangles (C115_barycentric_vector_partial); proved for the other spaces"
  },
  {
   "property": "C116",
   "status": "partial",
   "theorems": [
    "Verif.DofGeo.C116_p1",
    "Verif.DofGeo.C116_p1_affine",
    "Verif.DofGeo.C116_p1_discontinuous",
    "Verif.DofGeo.C116_p0",
    "Verif.DofGeo.C116_normals",
    "Verif.DofGeo.C116_normals_flat",
    "Verif.DofGeo.C116_p1_normals",
    "Verif.DofGeo.C116_p1_discontinuous_normals",
    "Verif.DofGeo.C116_p0_normals",
    "Verif.DofGeo.C116_columns",
    "Verif.DofGeo.C116_counterexample_barycentric_p1",
    "Verif.DofGeo.C116_counterexample_barycentric_p0",
    "Verif.DofGeo.C116_counterexample_folded",
    "Verif.DofGeo.C116_counterexample_line"
   ],
   "note": "false for the scalar spaces on the barycentric refinement, for grids of dimension one and at folds of the surface (C116_counterexample_...); proved for continuous and discontinuous P1 and P0"
  },
  {
   "property": "C117",
   "status": "proved",
   "theorems": [
    "Verif.LocalOps.C117_any",
    "Verif.LocalOps.C117_curl",
    "Verif.LocalOps.C117_normal",
    "Verif.LocalOps.C117_projection",
    "Verif.LocalOps.C117_div_curl",
    "Verif.LocalOps.C117_sparse"
   ],
   "note": ""
  },
  {
   "property": "C118",
   "status": "partial",
   "theorems": [
    "Verif.GridEval.C118_evaluate",
    "Verif.GridEval.C118_gradient",
    "Verif.GridEval.C118_centers",
    "Verif.GridEval.C118_vertices",
    "Verif.GridEval.C118_integrate_partial",
    "Verif.GridEval.C118_counterexample_integrate",
    "Verif.GridEval.C118_l2_norm_partial",
    "Verif.GridEval.C118_surface_grad_norm",
    "Verif.GridEval.C118_relative_error_partial",
    "Verif.GridEval.C118_counterexample_l2_order",
    "Verif.GridEval.C118_counterexample_order3",
    "Verif.GridEval.C118_counterexample_complex"
   ],
   "note": "integration fails for complex and vector-valued functions, the L2 norm on an element needs quadrature order 2, the relative error needs positive weights and a complex grid function for complex functions (C118_counterexample_...); the norms are proved for continuous piecewise linear (and constant) functions"
  },
  {
   "property": "C119",
   "status": "partial",
   "theorems": [
    "Verif.Compat.C119_python_spaces",
    "Verif.Compat.C119_library_partial",
    "Verif.Compat.C119_same_dofs_partial",
    "Verif.Compat.C119_reflexive",
    "Verif.Compat.C119_symmetric_partial",
    "Verif.Compat.C119_transitive_partial",
    "Verif.Compat.C119_counterexample_python",
    "Verif.Compat.C119_counterexample_segment",
    "Verif.Compat.C119_counterexample_refined",
    "Verif.Compat.C119_counterexample_identifier",
    "Verif.Compat.C119_counterexample_vector",
    "Verif.Compat.C119_counterexample_mixed"
   ],
   "note": "complete for the Python spaces; for the concrete classes without the discontinuous linear functions on the barycentric refinement, segments and refinement levels are not compared, and vector spaces are not compatible with their barycentric versions (C119_counterexample_...)"
  },
  {
   "property": "C120",
   "status": "proved",
   "theorems": [
    "Verif.Pot.C120_value",
    "Verif.Pot.C120_same_as_assembled",
    "Verif.Pot.C120_errors",
    "Verif.Pot.C120_undefined",
    "Verif.Pot.C120_counterexample_empty"
   ],
   "note": ""
  },
  {
   "property": "C121",
   "status": "partial",
   "theorems": [
    "Verif.DiscSpace.C121_contract_partial",
    "Verif.DiscSpace.C121_same",
    "Verif.DiscSpace.C121_errors",
    "Verif.DiscSpace.C121_components",
    "Verif.DiscSpace.C121_counterexample_dual",
    "Verif.DiscSpace.C121_counterexample_linear",
    "Verif.DiscSpace.C121_counterexample_segment",
    "Verif.DiscSpace.C121_counterexample_refined"
   ],
   "note": "without the dual-grid constants, the continuous linear functions on the barycentric grid, the discontinuous linear functions on a segment of the barycentric grid and the unit space, for which the promise is broken (C121_counterexample_...); the containment of the scalar functions is by kind of function (dof maps: C42, C109)"
  },
  {
   "property": "C122",
   "status": "partial",
   "theorems": [
    "Verif.NpEigen.C122_to_matrix_partial",
    "Verif.NpEigen.C122_to_vector_partial",
    "Verif.NpEigen.C122_errors",
    "Verif.NpEigen.C122_from_eigen",
    "Verif.NpEigen.C122_round_trip",
    "Verif.NpEigen.C122_counterexample_empty",
    "Verif.NpEigen.C122_counterexample_readonly",
    "Verif.NpEigen.C122_counterexample_complex"
   ],
   "note": "without empty arrays, read-only arrays that are not copied and complex arrays where a real matrix is asked for (C122_counterexample_...); at most 2^31 entries; NumPy and Cython as documented"
  },
  {
   "property": "C123",
   "status": "partial",
   "theorems": [
    "Verif.DMem.C123_memory_partial",
    "Verif.DMem.C123_algebra",
    "Verif.DMem.C123_counterexample_zero",
    "Verif.DMem.C123_counterexample_sum",
    "Verif.DMem.C123_errors"
   ],
   "note": "without zero and rank-one operators (C123_counterexample_zero), blocked operators and inverses of SciPy matrices (C123_errors); sizes as rational numbers"
  },
  {
   "property": "C124",
   "status": "partial",
   "theorems": [
    "Verif.Vtk.C124_round_trip_partial",
    "Verif.Vtk.C124_file_names",
    "Verif.Vtk.C124_errors",
    "Verif.Vtk.C124_counterexample_names",
    "Verif.Vtk.C124_counterexample_components",
    "Verif.Vtk.C124_counterexample_several",
    "Verif.Vtk.C124_counterexample_series",
    "Verif.Vtk.C124_stripped"
   ],
   "note": "for a single data set of fields with one or three components; names only for data without descriptions; the other cases are C124_counterexample_...; numbers as tokens"
  },
  {
   "property": "C125",
   "status": "partial",
   "theorems": [
    "Verif.Logging.C125_delivery_partial",
    "Verif.Logging.C125_transparent",
    "Verif.Logging.C125_counterexample_verbose",
    "Verif.Logging.C125_counterexample_twice"
   ],
   "note": "without files that are enabled several times (each time counts), the level of a second call that enables the console, and extended verbosity (C125_counterexample_...)"
  },
  {
   "property": "C126",
   "status": "partial",
   "theorems": [
    "Verif.DataTypes.C126_combined",
    "Verif.DataTypes.C126_check",
    "Verif.DataTypes.C126_dtype_partial",
    "Verif.DataTypes.C126_apply",
    "Verif.DataTypes.C126_real_blocks",
    "Verif.DataTypes.C126_summand",
    "Verif.DataTypes.C126_errors",
    "Verif.DataTypes.C126_lists",
    "Verif.DataTypes.C126_counterexample_rank_one",
    "Verif.DataTypes.C126_counterexample_scaled"
   ],
   "note": "without scalings by numbers of type complex that have no imaginary part, for the attribute dtype (C126_counterexample_scaled), and rank-one operators of complex64 vectors"
  },
  {
   "property": "C127",
   "status": "partial",
   "theorems": [
    "Verif.ExportData.C127_export_partial",
    "Verif.ExportData.C127_one",
    "Verif.ExportData.C127_errors",
    "Verif.ExportData.C127_visualize",
    "Verif.ExportData.C127_counterexample_visualize",
    "Verif.ExportData.C127_counterexample_series",
    "Verif.ExportData.C127_vtk_partial"
   ],
   "note": "for series in which no function has a larger type than the first, with transformations that keep the number of components (C127_counterexample_series, C127_errors), and without the default mode of visualize (C127_counterexample_visualize)"
  }
 ]
}