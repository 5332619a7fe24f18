# Files of /repo cited by the model (generated by tools/coverage.py)

The numbers are the lines cited in the comments of the definitions.  Code of these files outside the cited lines is not modelled.

| model module | files and lines |
|---|---|
| Aca | `lib/hmat/hmatrix_aca_compressor_impl.hpp`: 206-224, 19-41, 43-150, 152-181, 346-370, 320-371, 191-318; `lib/hmat/hmatrix_aca_compressor.hpp`: 21, 23-29, 30 |
| Arrays | `lib/fiber/_2d_array_imp.hpp`: 87, 95, 169-172, 125-127, 65-73, 25-30, 75-80, 106-118, 48-51, 53-60, 82-96, 120-129, 131-137, 37-46, 62, 175-237; `lib/fiber/_3d_array_imp.hpp`: 102-103, 112-113, 205-210, 130-133, 67-79, 27, 81-88, 90-95, 146-170, 48-54, 56-63, 97-114, 124-135, 137-144, 34-47, 213-339; `lib/fiber/_4d_array_imp.hpp`: 124-126, 135-137, 205-210, 100-104, 72-84, 25-32, 86-91, 148-173, 54-58, 60-68, 118-138, 92-106, 108-116, 40-54, 213-405; `lib/fiber/_2d_array.hpp`: 79-81; `lib/fiber/_3d_array.hpp`: 96-99; `lib/fiber/_4d_array.hpp`: 93-95; `lib/fiber/collection_of_2d_arrays_imp.hpp`; `lib/fiber/collection_of_3d_arrays_imp.hpp`; `lib/fiber/collection_of_4d_arrays_imp.hpp` |
| Assembly | `lib/assembly/dense_global_assembler.cpp`: 84-95, 284-296, 109-126, 80-129, 262-343, 165-213, 345-385; `lib/assembly/dense_global_block_assembler.cpp`: 149-179, 172-177, 87-126, 183-235; `lib/assembly/elementary_local_operator.cpp`: 236-285, 342-349, 287-357; `lib/space/space.hpp` |
| BlockClusterTree | `lib/hmat/block_cluster_tree.hpp`; `lib/hmat/block_cluster_tree_impl.hpp`: 15-21, 148-153, 135-188, 23-31, 190-195, 225-230, 212-223; `lib/hmat/cluster_tree_impl.hpp`: 76-90, 20-26 |
| BoundaryOperators | `lib/operators/laplace_operators_imp.hpp`: 78-87, 53-92, 94-136, 138-179, 181-222; `lib/operators/modified_helmholtz_operators_imp.hpp`: 61-118, 120-179, 181-239, 241-323; `lib/operators/helmholtz_operators.hpp`: 43-65, 67-89, 91-113, 115-136; `lib/operators/maxwell_operators_imp.hpp`: 39-91, 93-143; `lib/fiber/default_test_kernel_trial_integral_imp.hpp`: 42-98, 100-144, 32-40; `lib/fiber/default_collection_of_kernels_imp.hpp`: 124-142, 144-164; `lib/fiber/default_double_quadrature_rule_family.cpp`: 30-52; `lib/fiber/default_local_assembler_for_integral_operators_on_surfaces_imp.hpp`: 629-637; `lib/fiber/simple_test_scalar_kernel_trial_integrand_functor.hpp`: 88-132; `lib/fiber/modified_helmholtz_3d_hypersingular_integrand_functor_2.hpp`: 44-103; `lib/fiber/modified_maxwell_3d_single_layer_boundary_operator_integrand_functor.hpp`: 43-96; `lib/fiber/modified_maxwell_3d_double_layer_boundary_operator_integrand_functor.hpp`: 43-83; `lib/assembly/blas_quadrature_helper.hpp`: 31-47; `lib/fiber/modified_helmholtz_3d_hypersingular_transformation_functor.hpp`: 38-45; `lib/fiber/geometrical_data.hpp`: 64-140; `lib/fiber/shapeset.hpp`: 47-76; `lib/fiber/_3d_array_imp.hpp`: 97-114; `lib/fiber/_4d_array_imp.hpp`: 118-127; `lib/fiber/default_collection_of_shapeset_transformations_imp.hpp`: 49-66, 25-29; `lib/fiber/typical_test_scalar_kernel_trial_integral.cpp`: 228-380, 154-226, 382-488, 349-353; `lib/fiber/numerical_quadrature.cpp`: 178-247, 268-310; `lib/assembly/dense_global_assembler.cpp`: 97-102, 262-343 |
| BoundingBox | `lib/hmat/bounding_box.hpp`: 57; `lib/hmat/bounding_box_impl.hpp`: 20-28, 84-102, 142-150, 161-218, 234-242, 220-230, 220-232, 54-66, 104-135, 137-140, 12-18, 253-267; `lib/hmat/point.hpp`; `lib/hmat/cluster_tree_impl.hpp`: 76-90, 120-126, 176-177, 211, 219, 223 |
| BuffaChristiansen | `lib/space/buffa_christiansen_vector_space.cpp`: 251-252, 263-270, 330-331, 342-343, 332-333, 344-345, 347-364, 334-335, 336-337, 370-376, 367-377, 271-274, 282-283, 200-214, 284, 287, 293, 299, 306-311, 257-258, 284-304, 305-312, 260-261, 288-289, 294-295, 300-301, 290-291, 296-297, 302-303, 245-246, 278-281, 248-249, 275-277, 317-328, 380-392, 466-469, 460-461, 453-471, 474-486, 448-487, 515-554, 432-498, 500-565, 422-566, 417-567, 587-601, 75-123, 189-604; `lib/space/rotated_buffa_christiansen_vector_space.cpp`; `lib/fiber/buffa_christiansen_shapeset.hpp`: 42-108; `lib/fiber/rotated_buffa_christiansen_shapeset.hpp` |
| Chebychev | `lib/fmm/chebychev_tools_impl.hpp`: 14-16, 19-23, 18-25, 27-29, 30-35, 33-37, 10-38, 57-65, 57-71, 44-72, 77-85, 74-96, 98-102, 104-151; `python/bempp/api/_fmm/chebychev_tools.py` |
| ClusterTree | `lib/hmat/cluster_tree_impl.hpp`: 196-200, 153-155, 202-228, 164, 153-268, 28-34, 112-130, 260-265, 253-254, 258-266; `lib/hmat/cluster_tree.hpp`; `lib/hmat/simple_tree_node.hpp`; `lib/hmat/simple_tree_node_impl.hpp`: 48-52, 77-84; `lib/hmat/common_impl.hpp`: 10-16; `lib/hmat/dof_permutation.hpp`; `lib/hmat/dof_permutation_impl.hpp`: 10-12, 30-35 |
| Compat | `lib/space/adaptive_space_impl.hpp`: 58-65, 87-91, 160-164, 188-193, 195-200, 52-57, 308-314; `lib/space/space_identifier.hpp`: 24-48; `lib/space/piecewise_linear_discontinuous_scalar_space_barycentric.hpp`: 111-113; `lib/space/piecewise_constant_scalar_space_barycentric.cpp`: 44, 114-127; `lib/space/piecewise_constant_dual_grid_scalar_space.cpp`: 66, 149-156; `lib/space/buffa_christiansen_vector_space.cpp`: 78, 100-107; `lib/grid/concrete_grid.hpp`: 208-216, 338, 356-365, 433-449; `lib/grid/grid.cpp`: 65-71, 57-63; `lib/space/space.cpp`: 123-131; `lib/space/rwg_vector_space.cpp`: 97-104; `lib/space/piecewise_constant_scalar_space.cpp`: 119-132; `lib/space/piecewise_linear_continuous_scalar_space.cpp`: 143-157; `lib/space/piecewise_linear_continuous_scalar_space_barycentric.cpp`: 152-165; `lib/space/piecewise_linear_discontinuous_scalar_space_barycentric.cpp`: 152-165; `lib/space/piecewise_polynomial_continuous_scalar_space.cpp`: 86-104; `lib/space/piecewise_polynomial_discontinuous_scalar_space.cpp`: 173-191; `lib/space/piecewise_linear_discontinuous_scalar_space.cpp`: 104-111; `lib/space/piecewise_constant_dual_grid_discontinuous_scalar_space.cpp`: 124-131; `lib/space/raviart_thomas_0_vector_space.cpp`: 97-104; `lib/space/raviart_thomas_0_vector_space_barycentric.cpp`: 106-113; `lib/space/nedelec_0_vector_space.cpp`: 98-105; `lib/space/nedelec_0_vector_space_barycentric.cpp`: 105-112; `lib/space/scaled_nedelec_0_vector_space.cpp`: 98-105; `lib/space/scaled_nedelec_0_vector_space_barycentric.cpp`: 107-114; `lib/space/rotated_buffa_christiansen_vector_space.cpp`: 105-112; `lib/space/rwg_vector_space_barycentric.cpp`: 103-110; `lib/space/unit_scalar_space.cpp`: 84-91; `lib/space/space.hpp`: 357-361; `python/bempp/api/space/space.py`: 63-65; `python/bempp/api/grid/grid.py` |
| Compressor | `lib/hmat/hmatrix_compressor_impl.hpp`: 13-44; `lib/hmat/hmatrix_dense_compressor_impl.hpp`: 16-34; `lib/hmat/hmatrix_impl.hpp`: 295-319, 46-49; `lib/hmat/data_accessor.hpp`: 13-17; `lib/hmat/hmatrix_low_rank_data_impl.hpp`: 53-71; `lib/hmat/hmatrix_dense_data_impl.hpp`: 70-74 |
| DataContainer | `lib/grid/bempp_grid/triangle_imp/bempp_grid_data_container_impl.hpp`: 38-46, 45-66, 42-68, 17-127; `lib/grid/bempp_grid/triangle_imp/bempp_grid_data_container.hpp`: 22, 70-95; `lib/grid/bempp_grid/triangle_imp/bempp_grid_index_set.hpp`: 31-89; `lib/grid/bempp_grid/triangle_imp/bempp_grid_entity_imp.hpp`: 52-75; `lib/grid/bempp_grid/triangle_imp/bempp_grid_level_iterator.hpp` |
| DataTypes | `python/bempp/api/utils/data_types.py`: 10, 6-13, 16-22; `python/bempp/api/assembly/blocked_operator.py`: 628-632, 637-643, 737-740, 782-785, 834-841, 675-682, 654-689, 742-743, 787-788, 843-844, 882-887, 917-922, 161-165; `python/bempp/api/assembly/discrete_boundary_operator.py`: 570-576, 573-576, 528-529 |
| DiscontinuousSpace | `lib/space/space.hpp`: 127-164; `lib/space/adaptive_space_impl.hpp`: 67-79; `lib/space/piecewise_constant_scalar_space.cpp`: 75-82; `lib/space/piecewise_linear_discontinuous_scalar_space.cpp`: 115-122; `lib/space/piecewise_polynomial_discontinuous_scalar_space.cpp`; `lib/space/piecewise_constant_dual_grid_discontinuous_scalar_space.cpp`: 111-120; `lib/space/piecewise_constant_scalar_space_barycentric.cpp`: 62-72; `lib/space/piecewise_constant_dual_grid_scalar_space.cpp`: 136-146; `lib/space/piecewise_linear_continuous_scalar_space.cpp`: 107-118; `lib/space/piecewise_linear_continuous_scalar_space_barycentric.cpp`: 104-117; `lib/space/piecewise_linear_discontinuous_scalar_space_barycentric.cpp`: 104-117; `lib/space/piecewise_polynomial_continuous_scalar_space.cpp`: 219-230; `lib/space/unit_scalar_space.cpp`: 44-48; `lib/space/raviart_thomas_0_vector_space.cpp`: 121-131; `lib/space/raviart_thomas_0_vector_space_barycentric.cpp`: 132-142; `lib/space/nedelec_0_vector_space.cpp`: 122-132; `lib/space/nedelec_0_vector_space_barycentric.cpp`: 130-140; `lib/space/scaled_nedelec_0_vector_space.cpp`: 122-132; `lib/space/scaled_nedelec_0_vector_space_barycentric.cpp`: 133-143; `lib/space/buffa_christiansen_vector_space.cpp`: 130-140; `lib/space/rotated_buffa_christiansen_vector_space.cpp`: 136-146; `lib/space/rwg_vector_space.cpp`: 121-131; `lib/space/rwg_vector_space_barycentric.cpp`: 127-137 |
| DiscreteMemory | `python/bempp/api/assembly/discrete_boundary_operator.py`: 105-107, 152-156, 201-205, 239-241, 287-289, 361-363, 451-453, 505-507, 282-285, 358-359, 447-449, 109-114; `python/bempp/api/hmat/hmatrix_interface.py`: 54-63 |
| DiscreteOperator | `lib/assembly/discrete_boundary_operator.cpp`: 62, 99, 44-53, 33-56, 75-83, 58-84, 100-113; `lib/assembly/transposition_mode.hpp`: 33-38; `lib/assembly/discrete_boundary_operator.hpp`; `lib/assembly/discrete_dense_boundary_operator.cpp`: 80-83, 75-105, 35-62, 44-47; `lib/assembly/discrete_sparse_boundary_operator.cpp`: 95-98, 152-155, 44-67, 144-203, 269-272, 279-296, 207-241, 274-299, 222-230; `lib/assembly/discrete_hmat_boundary_operator.cpp`: 71-79, 38-86 |
| DofBoxes | `lib/common/bounding_box.hpp`: 36-43; `lib/space/space_helper.cpp`: 96-99, 84-94, 104-108, 76-122; `lib/space/rwg_vector_space.cpp`: 258-264, 323-331, 258-336, 309-315, 193-352, 473-479; `lib/common/bounding_box_helpers.hpp`: 60-67, 56-68, 75-82, 34-53; `lib/grid/grid.cpp`: 70-101; `lib/grid/concrete_geometry.hpp`; `lib/space/piecewise_constant_scalar_space.cpp`: 295-299, 268-316, 250-259; `lib/space/raviart_thomas_0_vector_space.cpp`; `lib/space/nedelec_0_vector_space.cpp`; `lib/space/scaled_nedelec_0_vector_space.cpp`; `lib/space/piecewise_polynomial_continuous_scalar_space.cpp`: 416-417, 432-433, 448-449, 465, 494, 528, 564-565, 367-585; `lib/space/buffa_christiansen_vector_space.cpp`: 569-585; `lib/space/rwg_vector_space_barycentric.cpp`: 316-333, 236-346; `lib/space/raviart_thomas_0_vector_space_barycentric.cpp`; `lib/space/nedelec_0_vector_space_barycentric.cpp`; `lib/space/scaled_nedelec_0_vector_space_barycentric.cpp`; `lib/assembly/hmat_interface.cpp`: 31-53; `lib/hmat/geometry_impl.hpp`: 13-20 |
| DofNormals | `python/bempp/api/space/space.py`; `lib/space/space_helper.cpp`: 146-156, 139-157, 175-183, 184-190, 168-171, 125-192, 38-55, 58-74; `lib/grid/concrete_geometry.hpp`: 378-383; `lib/space/piecewise_linear_continuous_scalar_space_barycentric.cpp`: 400-455 |
| Duffy | `lib/fiber/quadrature/galerkinduffy.hpp`: 44-45, 118-119, 153-212, 215-267, 270-298, 41, 106; `lib/fiber/numerical_quadrature.cpp`: 269-283, 190, 51-56, 207-211, 217-221, 66-89, 117-121, 98-143, 235-246, 199-233, 199-201, 178-247; `lib/fiber/quadrature/quadrature.hpp`: 226-252 |
| ExportData | `python/bempp/api/file_interfaces/general_interface.py`: 732-772, 405-545, 462-477, 489-504, 860-864, 876-880, 850-864, 868-880, 578-629, 774-882, 629, 68-153; `python/bempp/api/external/viewers.py`: 32-47, 85-86, 135-136, 4-53, 88-101, 138-149 |
| Fenics | `python/bempp/api/fenics_interface/coupling.py`: 22-36; `python/bempp/api/fenics_interface/p1_coupling.py`: 18-19, 17-19, 15-19, 3-24, 61-95; `python/bempp/api/fenics_interface/fenics_operator.py`: 17-46; `lib/grid/bempp_grid/triangle_imp/bempp_grid_data_container_impl.hpp` |
| Fractals | `python/bempp/api/shapes/fractals.py`: 55-83, 54-56, 271-273, 327-329, 392-394, 272-273, 13-85, 30, 35, 40-50, 38-50, 37-51, 36-51, 33-52, 57-83, 30-31, 49, 232-285, 257-266, 253-269, 252-270, 251-270, 274-283, 249, 373, 247, 371, 356-402, 384-388, 378-388, 376-390 |
| Gmsh | `python/bempp/api/file_interfaces/gmsh.py`: 5-37, 55-70, 73-94, 157-172, 210-227, 145-155, 197-205, 188-205, 96-103, 111-132, 133-176, 177-230, 106-233, 39-235, 403-411, 406-411, 416-417, 386-423, 426-435, 256-288, 251-306, 326-383, 315-383, 331-332, 354-355, 238-383; `python/bempp/api/file_interfaces/general_interface.py`: 225-403, 405-560, 578-703, 66-135, 843-882 |
| GridFactory | `lib/grid/grid_factory.cpp`: 213-227, 176-236, 71-118; `lib/grid/structured_grid_factory.hpp`: 84-97, 111-143, 261-275, 258-279, 219-286; `lib/grid/concrete_grid.hpp`: 78-136, 46-64, 275-317, 229-265, 267-317, 268, 281-282, 269-270, 319-330, 340-354, 209-358; `lib/grid/bempp_grid/triangle_imp/bempp_grid_triangle_factory.hpp`: 50-56 |
| GridFunctionEval | `python/bempp/api/assembly/grid_function.py`: 219-397, 224-229, 219-231, 262-275, 233-247, 254, 249-260, 277-296, 298-319, 335-351, 385-389, 354-397; `cython/bempp/core/space/local_evaluator.hpp`: 46-57; `python/bempp/api/space/space.py`: 103-118; `python/bempp/api/integration/gauss_rules.py`; `python/bempp/api/grid/geometry.py` |
| GridFunctions | `lib/fiber/default_local_assembler_for_grid_functions_on_surfaces_imp.hpp`: 112-137, 80-138; `lib/fiber/numerical_test_function_integrator_imp.hpp`: 110-114, 92-96, 119-125, 107-128, 67-129; `lib/fiber/default_quadrature_descriptor_selector_for_grid_functions.cpp`: 46-59; `cython/bempp/core/assembly/function_projector.hpp`: 174-186, 136-190; `lib/fiber/geometrical_data.hpp`: 34-41, 53-61; `lib/fiber/function.hpp`: 40-92; `lib/fiber/surface_normal_independent_function.hpp`: 62-104; `lib/fiber/surface_normal_dependent_function.hpp`: 63-103; `lib/fiber/domain_index_dependent_function.hpp`: 62-103; `lib/fiber/surface_normal_and_domain_index_dependent_function.hpp`: 66-112; `lib/grid/concrete_geometry.hpp`: 396-397 |
| GridSegment | `lib/grid/grid_segment.cpp`: 84-120, 285-293, 295-306, 311-317, 308-323, 325-338, 345-358, 340-343, 122-125, 161-184, 199-210, 133-218, 247-265, 227-275, 360-374; `lib/grid/grid_segment.hpp` |
| HMatAssembly | `lib/assembly/local_dof_lists_cache.cpp`: 126-129, 88-173, 176-226, 47-57, 66-70; `lib/assembly/weak_form_hmat_assembly_helper.cpp`: 203-316, 157-325; `lib/assembly/local_dof_lists_cache.hpp`: 45-55; `lib/assembly/hmat_global_assembler.cpp` |
| HMatGlobalAssembler | `lib/assembly/hmat_global_assembler.cpp`: 115-200, 160-178; `lib/hmat/hmatrix_dense_compressor_impl.hpp`: 16-34 |
| HMatInspect | `python/bempp/api/hmat/hmatrix_interface.py`: 77-84; `lib/hmat/hmatrix_impl.hpp`: 153-158, 64-67, 126-134; `lib/hmat/hmatrix_low_rank_data_impl.hpp`: 48-51, 73-78; `lib/hmat/hmatrix_dense_data_impl.hpp`: 76-79; `lib/hmat/hmatrix.hpp`: 88 |
| HMatrix | `lib/hmat/hmatrix.hpp`: 83-93; `lib/hmat/hmatrix_impl.hpp`: 160-204, 20-28, 138-140, 142-145, 109-110, 114-122, 73-136, 160-181, 183-204, 259-263, 272-276, 246-277, 206-284, 286-292, 286; `lib/hmat/dof_permutation_impl.hpp`: 14-24; `lib/common/common.hpp`: 20 |
| Hermite | `lib/fiber/hermite_interpolator.hpp`: 63-69, 22-42, 44-61; `lib/fiber/initialize_interpolator_for_modified_helmholtz_3d_kernels.cpp`: 26-45; `lib/grid/max_distance.cpp`: 42-71, 73-82; `lib/fiber/modified_helmholtz_3d_single_layer_potential_kernel_interpolated_functor.hpp`: 75-91; `lib/fiber/modified_helmholtz_3d_double_layer_potential_kernel_interpolated_functor.hpp`: 76-95; `lib/fiber/modified_helmholtz_3d_adjoint_double_layer_potential_kernel_interpolated_functor.hpp`: 77-96; `lib/fiber/modified_helmholtz_3d_hypersingular_off_diagonal_interpolated_kernel_functor.hpp`: 77-107; `lib/fiber/modified_helmholtz_3d_hypersingular_kernel_interpolated_functor.hpp`: 73-80; `lib/fiber/modified_maxwell_3d_single_layer_boundary_operator_kernel_interpolated_functor.hpp`: 72-79; `lib/fiber/modified_maxwell_3d_double_layer_operators_kernel_interpolated_functor.hpp`: 75-97; `lib/operators/modified_helmholtz_operators_imp.hpp`: 104-109; `lib/operators/maxwell_operators_imp.hpp`: 78-83 |
| Inside | `lib/grid/ray_triangle_intersection.cpp`: 29-33, 35-39, 41-43, 53-103; `lib/grid/grid.cpp`: 35-43, 45-53, 170-179, 139-183 |
| IntegratorMap | `lib/fiber/default_local_assembler_for_integral_operators_on_surfaces_imp.hpp`: 618-691 |
| Json | `python/bempp/api/file_interfaces/json.py`: 3-32, 35-69; `python/bempp/api/file_interfaces/general_interface.py`: 705-718, 720-730, 225-336, 379-392, 394-403, 405-545, 470-489, 547-560, 562-576, 578-676, 680-692, 694-703 |
| Kernels | `lib/fiber/geometrical_data.hpp`; `lib/fiber/laplace_3d_single_layer_potential_kernel_functor.hpp`: 66-71, 59-73; `lib/fiber/laplace_3d_double_layer_potential_kernel_functor.hpp`: 67-73, 59-77, 48-77; `lib/fiber/laplace_3d_adjoint_double_layer_potential_kernel_functor.hpp`: 60-78, 49-78; `lib/fiber/laplace_3d_hypersingular_off_diagonal_kernel_functor.hpp`: 61-89, 50-89; `lib/fiber/laplace_3d_single_layer_gradient_potential_kernel_functor.hpp`: 60-80, 49-80; `lib/fiber/laplace_3d_double_layer_gradient_potential_kernel_functor.hpp`: 60-100, 49-100; `lib/fiber/modified_helmholtz_3d_single_layer_potential_kernel_functor.hpp`: 69-82, 84-86, 56-82; `lib/fiber/modified_helmholtz_3d_double_layer_potential_kernel_functor.hpp`: 69-88, 56-88; `lib/fiber/modified_helmholtz_3d_adjoint_double_layer_potential_kernel_functor.hpp`: 70-89, 57-89; `lib/fiber/modified_helmholtz_3d_hypersingular_off_diagonal_kernel_functor.hpp`: 68-97, 55-97; `lib/fiber/modified_helmholtz_3d_hypersingular_kernel_functor.hpp`: 70-77, 58-77; `lib/fiber/modified_helmholtz_3d_far_field_single_layer_potential_kernel_functor.hpp`: 67-77, 54-77; `lib/fiber/modified_helmholtz_3d_far_field_double_layer_potential_kernel_functor.hpp`: 67-81, 54-81; `lib/fiber/modified_maxwell_3d_double_layer_operators_kernel_functor.hpp`: 74-95, 61-95; `lib/fiber/modified_maxwell_3d_single_layer_boundary_operator_kernel_functor.hpp`: 72-79, 60-79; `lib/fiber/modified_maxwell_3d_single_layer_potential_operator_kernel_functor.hpp`: 74-98, 61-98; `lib/fiber/modified_maxwell_3d_far_field_double_layer_potential_operator_kernel_functor.hpp`: 66-79, 53-79; `lib/fiber/modified_maxwell_3d_far_field_single_layer_potential_operator_kernel_functor.hpp`: 71-86, 58-86 |
| Lazy | `lib/common/lazy.hpp`: 51-60; `lib/grid/concrete_grid.hpp`: 210-358 |
| ListsCache | `lib/assembly/local_dof_lists_cache.cpp`: 31-86, 50-57, 38-44; `lib/assembly/component_lists_cache.cpp`: 32-74 |
| LocalAssembler | `lib/fiber/default_local_assembler_for_integral_operators_on_surfaces_imp.hpp`; `lib/fiber/types.hpp`; `lib/fiber/default_local_assembler_for_integral_operators_on_surfaces.hpp`: 127-133 |
| LocalOperators | `lib/fiber/default_local_assembler_for_local_operators_on_surfaces_imp.hpp`: 79-137; `lib/fiber/numerical_test_trial_integrator_imp.hpp`: 87-92, 115-116, 107-120, 64-121; `lib/fiber/default_test_trial_integral_imp.hpp`: 54-59, 61-91; `lib/fiber/default_quadrature_descriptor_selector_for_local_operators.cpp`: 48-64; `lib/fiber/simple_test_trial_integrand_functor.hpp`: 52-71; `lib/fiber/single_component_test_trial_integrand_functor.hpp`: 55-70, 51-53; `lib/fiber/maxwell_3d_test_trial_integrand_functor.hpp`: 50-75; `lib/fiber/scalar_function_value_functor.hpp`: 33-50; `lib/fiber/surface_div_3d_functor.hpp`: 40-60; `lib/fiber/surface_curl_3d_functor.hpp`: 40-70; `lib/fiber/hcurl_surface_curl_functor.hpp`: 40-75; `lib/fiber/scalar_function_value_times_normal_functor.hpp`: 40-60; `lib/fiber/constant_scalar_shapeset.hpp`: 40-66; `lib/fiber/linear_scalar_shapeset.hpp`: 64-98; `lib/fiber/raviart_thomas_0_shapeset.hpp`: 60-90; `lib/operators/abstract_identity_operator.cpp`: 66-118; `lib/operators/abstract_maxwell_identity_operator.cpp`: 32-75; `lib/operators/sparse_operators.hpp`: 79-120; `lib/grid/concrete_geometry.hpp`: 385-407; `lib/fiber/single_quadrature_descriptor.hpp` |
| Logging | `python/bempp/api/utils/logging.py`: 24-30, 32-74, 77-97; `python/bempp/api/__init__.py`: 30-39, 30-31 |
| MatData | `lib/hmat/hmatrix_data.hpp`: 16-18; `lib/hmat/hmatrix_dense_data_impl.hpp`: 13-34, 46-48, 50-52, 58-62, 70-74; `lib/hmat/hmatrix_low_rank_data_impl.hpp`: 92-112, 39-41, 43-46, 80-84, 53-71; `lib/hmat/common.hpp`: 22; `lib/hmat/hmatrix_dense_data.hpp`; `lib/hmat/hmatrix_low_rank_data.hpp` |
| Menger | `python/bempp/api/shapes/fractals.py`: 88-227, 288-353, 105-106, 108-113, 115-125, 128-132, 129-132, 134-147, 157-216, 158-163, 149-216, 155, 218, 311-312, 309-325, 308-326, 307-326, 330-331, 334-348, 332-351 |
| Morton | `lib/fmm/octree_impl.hpp`: 228-243, 246-258, 260-267, 269-274, 89-91, 93-95, 97-99, 101-103, 105-107, 203-209, 195-220 |
| NumericalIntegrator | `lib/fiber/separable_numerical_test_kernel_trial_integrator_imp.hpp`; `lib/fiber/nonseparable_numerical_test_kernel_trial_integrator_imp.hpp`; `lib/fiber/geometrical_data.hpp`: 32-39, 50-57; `lib/grid/concrete_geometry.hpp`: 385-406 |
| NumpyEigen | `cython/bempp/core/utils/py_utils.hpp`: 60-92, 82-92, 60-80 |
| Octree | `lib/fmm/octree_impl.hpp`: 66-69, 45-78, 9-79, 131-134; `lib/fmm/interaction_list_impl.hpp`: 30, 9-36 |
| OctreeGeometry | `lib/fmm/octree_impl.hpp`: 20-28, 124-126, 109-129, 136-141, 150-168, 170-187, 33; `lib/grid/concrete_grid_view.hpp`: 141-144, 132-151; `lib/fmm/octree.hpp`: 31 |
| OperatorEvaluator | `lib/fiber/default_evaluator_for_integral_operators_imp.hpp`; `lib/fiber/default_kernel_trial_integral_imp.hpp`: 66-98, 87-97; `lib/fiber/default_quadrature_descriptor_selector_for_potential_operators.cpp`: 104-121; `lib/fiber/accuracy_options.cpp`: 62-64 |
| Osrc | `python/bempp/api/operators/boundary/helmholtz.py`: 288-505, 493-494, 495, 473-505, 352, 439, 350-356, 437-443, 370-371, 457-458, 460-461, 368-371, 455-458, 364-372, 451-462, 334-374, 421-464; `python/bempp/api/assembly/discrete_boundary_operator.py`: 441-444, 476-482, 638-709 |
| PairTopology | `lib/fiber/element_pair_topology.hpp`: 43, 35-64, 124-131, 118-131, 101-169; `lib/fiber/numerical_quadrature.cpp`: 235-246, 269-283 |
| Params | `lib/common/global_parameters.cpp`: 63-88, 26-124; `lib/assembly/context.cpp`: 79-88, 58-68, 52-143; `lib/assembly/evaluation_options.cpp`: 51-59, 40-47, 28-60; `lib/assembly/hmat_interface.cpp`: 66-98; `lib/assembly/hmat_global_assembler.cpp`: 139-175; `lib/operators/modified_helmholtz_operators_imp.hpp`: 62-122; `python/bempp/api/assembly/boundary_operator.py`: 266-283, 296-322; `cython/bempp/core/utils/parameter_list.pxd`: 17-20; `lib/fiber/parallelization_options.cpp`: 51-57; `lib/fiber/accuracy_options.cpp`: 98-115, 224-241; `lib/operators/maxwell_operators_imp.hpp`: 60-63; `python/bempp/api/assembly/abstract_boundary_operator.py`: 25-52; `lib/assembly/abstract_boundary_operator.cpp` |
| PotentialField | `lib/assembly/assembled_potential_operator.cpp`: 31-62, 90-107; `lib/assembly/dense_global_assembler.cpp`: 165-213, 345-385 |
| PotentialHMat | `lib/assembly/component_lists_cache.cpp`: 76-129, 131-149, 40-74; `lib/assembly/hmat_global_assembler.cpp`: 64-112, 75-95; `lib/assembly/potential_operator_hmat_assembly_helper.cpp`: 124-186, 85-187, 44-68, 56-59; `lib/assembly/component_lists_cache.hpp`; `lib/hmat/geometry_impl.hpp`: 13-20; `lib/assembly/weak_form_hmat_assembly_helper.cpp`: 117-154 |
| PotentialOperators | `lib/fiber/default_local_assembler_for_potential_operators_on_surfaces_imp.hpp`: 302-371; `lib/fiber/numerical_kernel_trial_integrator_imp.hpp`: 99-101, 114-119, 184-189, 256-262, 80-81, 73-131, 182-204, 137-205, 251-269, 211-270; `lib/fiber/default_kernel_trial_integral_imp.hpp`: 54-59, 101-140; `lib/fiber/default_quadrature_descriptor_selector_for_potential_operators.cpp`: 75-85, 95-101, 53-90; `lib/fiber/simple_scalar_kernel_trial_integrand_functor.hpp`: 43-75; `lib/fiber/simple_vectorial_kernel_trial_integrand_functor.hpp`: 43-77; `lib/fiber/modified_maxwell_3d_double_layer_potential_operator_integrand_functor.hpp`: 45-81; `lib/fiber/modified_maxwell_3d_single_layer_potential_operator_integrand_functor.hpp`: 45-86; `lib/operators/laplace_3d_single_layer_potential_operator.cpp`: 47-57; `lib/operators/laplace_3d_double_layer_potential_operator.cpp`: 47-57; `lib/operators/laplace_3d_single_layer_gradient_potential_operator.cpp`: 47-57; `lib/operators/laplace_3d_double_layer_gradient_potential_operator.cpp`: 47-57; `lib/operators/modified_helmholtz_3d_single_layer_potential_operator.cpp`: 46-57; `lib/operators/modified_helmholtz_3d_double_layer_potential_operator.cpp`: 46-57; `lib/operators/helmholtz_operators.hpp`: 138-155, 157-173; `lib/operators/helmholtz_3d_far_field_single_layer_potential_operator.cpp`: 47-57; `lib/operators/helmholtz_3d_far_field_double_layer_potential_operator.cpp`: 47-57; `lib/operators/maxwell_3d_single_layer_potential_operator.cpp`: 46-56; `lib/operators/maxwell_3d_double_layer_potential_operator.cpp`: 46-55; `lib/operators/maxwell_3d_far_field_single_layer_potential_operator.cpp`: 47-58; `lib/operators/maxwell_3d_far_field_double_layer_potential_operator.cpp`: 47-57; `lib/fiber/default_collection_of_kernels_imp.hpp`: 144-164 |
| PyBlocked | `python/bempp/api/assembly/blocked_operator.py`: 451-866, 577, 718, 768, 826, 691-695, 757-760, 815-818, 858-861, 714-715, 762-765, 820-823, 863-866, 633, 721-740, 771-785, 829-841, 475, 642-643, 603-617, 601-618, 599-618, 649-652, 580-643, 677-683, 673-684, 670-685, 637-640, 654-689, 512-534, 742-743, 787-788, 501-503, 512-530, 545-553, 505-510, 519-520, 536-543, 555-557, 559-561, 517-518, 645-647, 745-747, 790-805, 846-848; `python/bempp/api/assembly/discrete_boundary_operator.py`: 607-632 |
| PyBlockedBoundary | `python/bempp/api/assembly/blocked_operator.py`: 26-448, 29-33, 197-207, 221-249, 251-253, 122-127, 297-326, 144-146, 355-372, 129-131, 141-143, 186-191, 413-418, 73-88, 68-90, 65-90, 270-276, 54-92, 255-268, 328-330, 374-376, 420-421, 35-52, 147-181, 869-893, 895-928, 914-928, 931-952 |
| PyBoundary | `python/bempp/api/assembly/boundary_operator.py`: 34-42, 80-82, 458-472, 89-90, 106-117, 482-490, 91-92, 500-515, 188-199, 522-538, 161-173, 545-552, 175-186, 559-566, 376-394, 426-438, 283-317, 359-373, 134-151, 404-415, 417-424, 213-219, 395-424, 445-447, 474-476, 492-494, 517-519, 153, 60-78, 119-153; `python/bempp/api/space/projection.py`: 33-54, 15-28, 3-13; `python/bempp/api/space/space.py` |
| PyDiscrete | `python/bempp/api/assembly/discrete_boundary_operator.py`: 681-702, 718-723, 711-723, 132-134, 178-180, 220-222, 256-257, 305-306, 377-378, 481-482, 528-529, 383-388, 585-589, 137-138, 182-184, 224-225, 262-264, 308-309, 485-488, 531-535, 140-141, 186-188, 227-228, 270-271, 311-312, 390-392, 35-54, 65-67, 326-335, 419-433, 28-33, 119-134, 317-321, 408-414, 45-46, 56-63, 333-341, 430-439, 76-78, 323-324, 416-417, 80-82, 35-42, 162-180, 329-332, 419-429, 476-482, 638-709, 149-150, 197-199, 236-237, 277-279, 343-345, 394-396, 497-499, 546-547, 595-596, 146-147, 193-195, 233-234, 273-275, 347-350, 403-406, 501-503, 543-544, 598-600, 143-144, 190-191, 230-231, 266-268, 314-315, 398-401, 490-495, 537-541, 607-632 |
| PyGrid | `lib/grid/concrete_grid_view_imp.hpp`: 81-96, 71-79, 100-113; `lib/grid/grid_factory.cpp`: 37-66, 244-256, 40-66; `lib/grid/bempp_grid/triangle_imp/bempp_grid_triangle_factory.hpp`: 26-46; `python/bempp/api/grid/grid.py`: 155-201; `python/bempp/api/grid/grid_view.py`; `python/bempp/api/shapes/shapes.py`: 99-105, 99-106, 77-107; `lib/grid/bempp_grid/triangle_imp/bempp_grid_data_container_impl.hpp`: 24-25, 137-168; `python/bempp/api/grid/grid_factory.py` |
| PyGridFunction | `python/bempp/api/assembly/grid_function.py`: 444-461, 491-500, 99-143, 145-159, 482-489, 213-216, 184-218, 414-431, 514-541, 399-412, 331-338, 270-290; `python/bempp/api/assembly/boundary_operator.py`: 93-101 |
| PyGridView | `python/bempp/api/grid/grid.py`: 46-61, 67-81, 67-69; `python/bempp/api/grid/grid_view.py`: 24-72, 104-137, 166-192, 240-259, 46-56, 58-62, 166-178, 180-192, 247-259, 240-245; `python/bempp/api/grid/index_set.py`: 22 |
| PyOperators | `python/bempp/api/operators/boundary/_common.py`: 14-21, 65-98, 25-62, 102-168, 236-265, 268-313, 175-222, 171-233; `python/bempp/api/operators/boundary/laplace.py`: 81-206, 300, 290-300, 209-308, 312-371; `python/bempp/api/operators/boundary/modified_helmholtz.py`: 87-218, 315, 325-326, 305-326, 221-334; `python/bempp/api/operators/boundary/helmholtz.py`; `python/bempp/api/operators/boundary/maxwell.py`: 44-93, 143-194, 197-257, 102-131, 133-138; `python/bempp/api/operators/boundary/sparse.py`: 137-191; `python/bempp/api/space/projection.py`: 15-28, 30-53; `python/bempp/api/space/space.py`: 170-225 |
| PyPotential | `python/bempp/api/assembly/potential_operator.py`: 10-16, 38-39, 34-40, 42-50, 59-62, 69-71, 73-75, 18-32, 63-64; `python/bempp/api/linalg/direct_solvers.py`: 45-47, 5-16, 18-49; `python/bempp/api/operators/potential/_common.py`: 4-29; `python/bempp/api/operators/boundary/laplace.py`: 6-149; `python/bempp/api/operators/boundary/maxwell.py`: 7-80; `python/bempp/api/operators/boundary/modified_helmholtz.py`: 7-83; `python/bempp/api/assembly/discrete_boundary_operator.py`: 628-629 |
| PySolvers | `python/bempp/api/linalg/iterative_solvers.py`: 13-42, 25-32, 117-126, 168-177, 218-227, 93-102, 143-152, 93-126, 143-177, 195-201, 179-227, 45-69, 138-139, 73-126 |
| PySpace | `python/bempp/api/space/space.py`: 786-795, 690-698, 208-210, 181-184, 217-229, 57-61, 231-234, 235-271, 296-351, 274-293, 354-373, 376-395, 411-429, 398-433, 476-511, 436-473, 514-550, 553-572, 575-595, 598-617, 620-640, 643-662, 665-685, 690-872; `lib/space/adaptive_space_impl.hpp`: 55-61, 309-315, 37-45, 26-35; `lib/grid/grid_segment.cpp`: 357-359, 365-368, 370-377; `python/bempp/api/grid/grid.py`: 85-89; `lib/grid/grid_segment.hpp`: 157-186; `lib/space/adaptive_space.hpp`: 180-190; `lib/space/raviart_thomas_0_vector_space.cpp`: 182-336, 293-301; `lib/space/nedelec_0_vector_space.cpp`; `lib/space/scaled_nedelec_0_vector_space.cpp`; `lib/space/rwg_vector_space.hpp`: 59-64; `lib/space/dof_assignment_mode.hpp`: 28-32; `lib/space/rwg_vector_space.cpp`: 301-309; `lib/space/piecewise_linear_continuous_scalar_space.cpp` |
| PySparse | `python/bempp/api/assembly/functors.py`: 24-107, 109-160; `python/bempp/api/operators/boundary/sparse.py`: 5-30, 33-63, 65-97, 99-137; `cython/bempp/core/assembly/assembly_from_functors.hpp`: 12-30; `lib/assembly/general_elementary_local_operator_imp.hpp`; `cython/bempp/core/fiber/shape_transformation_functors.hpp`: 135-222; `cython/bempp/core/fiber/local_integrand_functors.hpp`: 91-121; `python/bempp/api/assembly/abstract_boundary_operator.py`; `python/bempp/api/space/space.py`; `python/bempp/api/operators/boundary/laplace.py`: 294-301; `python/bempp/api/operators/boundary/modified_helmholtz.py`: 311-318, 321-328; `lib/fiber/nedelec_0_shapeset.hpp`: 50-88 |
| PyStructured | `python/bempp/api/grid/grid.py`: 204-266, 253-263 |
| PythonFunctor | `cython/bempp/core/assembly/function_projector.hpp`: 36-130 |
| Quadrature | `lib/fiber/quadrature/quadrature.hpp`: 139-144, 158-167, 169-175, 177-181, 208-217, 219-224, 226-230; `lib/fiber/numerical_quadrature.cpp`: 37-39, 48-62, 37-63 |
| QuadratureSelector | `lib/fiber/accuracy_options.cpp`: 98-99, 277-295, 299-306, 59-67, 171-179; `lib/fiber/quadrature_options.hpp`: 35-74, 64-69; `lib/fiber/default_quadrature_descriptor_selector_for_integral_operators.cpp`; `lib/fiber/default_local_assembler_for_operators_on_surfaces_utilities.cpp`; `lib/fiber/accuracy_options.hpp`; `lib/fiber/raw_grid_geometry.hpp`; `lib/fiber/double_quadrature_descriptor.hpp`: 35-43 |
| QuadratureTables | `lib/fiber/quadrature/gausstria.hpp`: 62-87, 90-95, 101-664, 670-894; `lib/fiber/quadrature/gausstensor.hpp`: 51-56, 59-1538, 1541-2305 |
| Refine | `python/bempp/api/grid/grid_view.py`: 239-423, 20-65, 274, 289-290, 265-276, 260-276, 278-308, 327, 329-409, 310-420, 255-423, 246-252, 239-244, 272, 254-256 |
| RowLocks | `lib/hmat/hmatrix_impl.hpp`: 233-279, 260, 274, 262, 276, 263, 277 |
| ScalarKernelIntegral | `lib/fiber/typical_test_scalar_kernel_trial_integral.cpp`; `lib/fiber/default_test_kernel_trial_integral_imp.hpp`: 100-144; `lib/fiber/test_scalar_kernel_trial_integrand_functor.hpp`: 55-92; `lib/fiber/_3d_array.hpp`: 46-97; `lib/fiber/_3d_array_imp.hpp`: 97-114; `lib/fiber/_4d_array.hpp`; `lib/fiber/_4d_array_imp.hpp`: 118-127 |
| ShapeTransformation | `lib/grid/concrete_geometry.hpp`: 409-454, 432-436, 446-453, 385-407; `lib/fiber/geometrical_data.hpp`: 53-61, 34-41; `lib/fiber/hdiv_function_value_functor.hpp`: 45-55, 40-43; `lib/fiber/hcurl_function_value_functor.hpp`: 45-55, 40-43; `lib/fiber/surface_div_3d_functor.hpp`: 47-54, 42-45; `lib/fiber/surface_grad_3d_functor.hpp`: 47-64, 42-45; `lib/fiber/surface_curl_3d_functor.hpp`: 47-70, 42-45; `lib/fiber/hcurl_surface_curl_functor.hpp`: 46-79, 41-44; `lib/fiber/hdiv_to_hcurl_function_value_functor.hpp`: 46-64, 41-44; `lib/fiber/scalar_function_value_times_normal_functor.hpp`: 46-53, 41-44 |
| SingularPart | `python/bempp/api/assembly/assembler.py`: 139-141, 143-144, 149-164, 171-182, 191-198, 29-44, 115-210 |
| Space | `lib/common/types.hpp`; `lib/space/piecewise_linear_continuous_scalar_space.cpp`: 207-210, 241-251, 179-201, 173-206, 242-245, 95-103, 160-255, 271-277, 257-261, 279-286, 263-269, 288-295, 105-118; `lib/space/rwg_vector_space.cpp`: 235-244, 303-333, 213-231, 205-231, 232-244, 277-279, 304-306, 316-321, 107-115, 193-352; `lib/space/piecewise_polynomial_continuous_scalar_space.cpp`: 333-352, 407-583, 266-271, 322-325, 279-284, 327-329, 289-316, 355-356, 497, 460-485, 556-583, 392-583, 238-610; `lib/space/space_helper.cpp`: 189-201; `lib/space/piecewise_linear_discontinuous_scalar_space.cpp`: 170-181, 156-182, 153-183, 172-173, 131-189, 198-203, 191-203; `lib/space/piecewise_constant_scalar_space.cpp`: 158-193, 195-205; `lib/space/space.cpp`: 48-92, 94-119; `lib/space/dof_assignment_mode.hpp` |
| SpaceBarycentric | `lib/space/piecewise_constant_dual_grid_scalar_space.cpp`: 176-220; `lib/fiber/linear_scalar_shapeset_barycentric.hpp`: 34, 52-54, 64-72, 89-97, 73-85, 100-112; `lib/fiber/raviart_thomas_0_shapeset_barycentric.hpp`: 34; `lib/space/piecewise_linear_continuous_scalar_space_barycentric.cpp`: 197-206, 189-194, 208-212, 187, 241-252, 218-227, 92-101, 163-237; `lib/space/piecewise_linear_discontinuous_scalar_space_barycentric.cpp`: 167-245; `lib/space/piecewise_constant_scalar_space_barycentric.cpp`: 152-199 |
| SpacePolyDisc | `lib/space/piecewise_polynomial_discontinuous_scalar_space.cpp`: 314-325, 280-505, 278-506, 309-505, 251-254, 288-294, 93-144, 238-527, 570-577, 579-584, 511-514, 535-539, 511-512, 560-567; `lib/space/unit_scalar_space.cpp`: 102-131, 138-141, 159-167; `lib/space/dof_assignment_mode.hpp`: 27-31; `lib/space/piecewise_polynomial_continuous_scalar_space.cpp`: 219-231; `lib/space/piecewise_polynomial_discontinuous_scalar_space.hpp`: 83 |
| SpaceVector | `lib/space/rwg_vector_space_barycentric.cpp`: 194-232, 204-213, 295-304, 317, 316-346, 338-341, 76-121, 185-355; `lib/space/raviart_thomas_0_vector_space_barycentric.cpp`; `lib/space/nedelec_0_vector_space_barycentric.cpp`; `lib/space/scaled_nedelec_0_vector_space_barycentric.cpp`; `lib/fiber/raviart_thomas_0_shapeset.hpp`: 40-90; `lib/fiber/raviart_thomas_0_shapeset_barycentric.hpp`: 47-49, 43-125; `lib/fiber/nedelec_0_shapeset.hpp`: 58-88; `lib/fiber/nedelec_0_shapeset_barycentric.hpp`: 43-77 |
| Sphere | `cython/bempp/core/grid/py_sphere.hpp`: 68-73, 82-86, 79-100, 75-109, 75-110, 115-121, 67-122, 41-56, 60-61, 38-65; `python/bempp/api/grid/grid.py` |
| TreeNode | `lib/hmat/simple_tree_node.hpp`: 14-55; `lib/hmat/simple_tree_node_impl.hpp`: 79-81, 105-107, 188-191, 48-52, 36-46, 77-84, 98-108, 124-134, 86-136, 181-193 |
| Vtk | `python/bempp/api/file_interfaces/vtk.py`: 14-29, 75-78, 91-94, 74-85, 90-101, 36-70, 32-101, 103-113, 3-115; `python/bempp/api/file_interfaces/general_interface.py`: 405-545, 225-377, 578-676, 620-631 |
| WeakFormCache | `lib/assembly/discrete_boundary_operator_cache.cpp`: 28-33, 52-55, 20-33, 73-74, 89, 61-108, 111-128 |

Cited: 238 of 498 files under lib/, 40 of 98 under python/, 8 of 112 under cython/.

## Files that no definition cites

* `cython/bempp`: __init__.pxd, __init__.py, config.in.py
* `cython/bempp/core`: __init__.pxd, __init__.py, config.in.py
* `cython/bempp/core/assembly`: __init__.pxd, __init__.py, abstract_boundary_operator.pxd, abstract_boundary_operator.pyx, assembler.pxd, assembler.pyx, discrete_boundary_operator.pxd, discrete_boundary_operator.pyx, discrete_operator_conversion.hpp, function_projector.pyx
* `cython/bempp/core/common`: __init__.pxd, __init__.py, bounding_box.pxd, global_parameters.pyx, point.pxd
* `cython/bempp/core/fiber`: __init__.pxd, __init__.py, arrays.pxd, arrays.pyx, integrators.pyx, local_integrand_functors.pxd, local_integrand_functors.pyx, shape_transformation_functors.pxd, shape_transformation_functors.pyx, shapeset.pxd, shapeset.pyx
* `cython/bempp/core/fmm`: __init__.pxd, __init__.py, chebychev_tools.pxd, chebychev_tools.pyx, interaction_list.pxd, interaction_list.pyx, octree.pxd, octree.pyx
* `cython/bempp/core/grid`: __init__.pxd, __init__.py, codim_template.pxd, entity.pxd, entity.pyx, entity_iterator.pxd, entity_iterator.pyx, entity_pointer.pxd, entity_pointer.pyx, geometry.pxd, geometry.pyx, grid.pxd, grid.pyx, grid_factory.pyx, grid_view.pxd, grid_view.pyx, id_set.pxd, id_set.pyx, index_set.pxd, index_set.pyx, py_entity_helper.hpp, test_grid.pyx
* `cython/bempp/core/hmat`: __init__.pxd, __init__.py, block_cluster_tree.pxd, block_cluster_tree.pyx, hmatrix.pxd, hmatrix_data.pxd, hmatrix_data.pyx, hmatrix_interface.pyx, py_hmat_support.hpp
* `cython/bempp/core/operators`: __init__.pxd, __init__.py
* `cython/bempp/core/operators/boundary`: __init__.pxd, __init__.py, laplace.pyx, maxwell.pyx, modified_helmholtz.pyx, sparse.pyx, support_operators.hpp
* `cython/bempp/core/operators/far_field`: __init__.pxd, __init__.py, helmholtz.pyx, maxwell.pyx
* `cython/bempp/core/operators/potential`: __init__.pxd, __init__.py, laplace.pyx, maxwell.pyx, modified_helmholtz.pyx
* `cython/bempp/core/space`: __init__.pxd, __init__.py, space.pxd, space.pyx
* `cython/bempp/core/utils`: __init__.pxd, __init__.py, complex.pxd, eigen.pxd, eigen.pyx, enum_types.pxd, enum_types.pyx, parameter_list.pyx, py_types.hpp, shared_ptr.pxd, unique_ptr.pxd
* `lib`: config_bempp.in.hpp, doxygen_main.hpp
* `lib/assembly`: abstract_boundary_operator.hpp, abstract_boundary_operator_id.hpp, assembled_potential_operator.hpp, assembly_options.cpp, assembly_options.hpp, context.hpp, dense_global_assembler.hpp, dense_global_block_assembler.hpp, discrete_boundary_operator_cache.hpp, discrete_dense_boundary_operator.hpp, discrete_hmat_boundary_operator.hpp, discrete_sparse_boundary_operator.hpp, elementary_integral_operator.cpp, elementary_integral_operator.hpp, elementary_integral_operator_base.cpp, elementary_integral_operator_base.hpp, elementary_local_operator.hpp, elementary_potential_operator.cpp, elementary_potential_operator.hpp, elementary_regular_integral_operator.hpp, elementary_singular_integral_operator.hpp, evaluation_options.hpp, function.hpp, general_elementary_local_operator.hpp, general_elementary_singular_integral_operator.hpp, general_elementary_singular_integral_operator_imp.hpp, hmat_global_assembler.hpp, hmat_interface.hpp, local_assembler_construction_helper.hpp, numerical_quadrature_strategy.cpp, numerical_quadrature_strategy.hpp, potential_operator.hpp, potential_operator_hmat_assembly_helper.hpp, scattered_range.hpp, surface_normal_and_domain_index_dependent_function.hpp, symmetry.hpp, weak_form_hmat_assembly_helper.hpp
* `lib/common`: acc.hpp, armadillo_fwd.hpp, auto_timer.hpp, bempp_init.cpp, boost_make_shared_fwd.hpp, boost_ptr_map_fwd.hpp, boost_ptr_vector_fwd.hpp, boost_scoped_array_fwd.hpp, boost_shared_array_fwd.hpp, chunk_statistics.hpp, complex_aux.hpp, deprecated.hpp, eigen_support.cpp, eigen_support.hpp, ensure_not_null.hpp, global_parameters.hpp, multidimensional_arrays.hpp, not_implemented_error.hpp, scalar_traits.hpp, shared_ptr.hpp, stl_io.hpp, tbb_init.cpp, tbb_init.hpp, to_string.hpp
* `lib/fiber`: basis.hpp, basis_data.hpp, basis_transformation_functor_wrappers.hpp, cl_util.cpp, cl_util.hpp, collection_of_2d_arrays.hpp, collection_of_3d_arrays.hpp, collection_of_4d_arrays.hpp, collection_of_basis_transformations.hpp, collection_of_kernels.hpp, collection_of_shapeset_transformations.hpp, conjugate.hpp, default_collection_of_basis_transformations.hpp, default_collection_of_kernels.hpp, default_collection_of_shapeset_transformations.hpp, default_double_quadrature_rule_family.hpp, default_evaluator_for_integral_operators.hpp, default_kernel_trial_integral.hpp, default_local_assembler_for_grid_functions_on_surfaces.hpp, default_local_assembler_for_local_operators_on_surfaces.hpp, default_local_assembler_for_operators_on_surfaces_utilities.hpp, default_local_assembler_for_potential_operators_on_surfaces.hpp, default_quadrature_descriptor_selector_factory.cpp, default_quadrature_descriptor_selector_factory.hpp, default_quadrature_descriptor_selector_for_grid_functions.hpp, default_quadrature_descriptor_selector_for_integral_operators.hpp, default_quadrature_descriptor_selector_for_local_operators.hpp, default_quadrature_descriptor_selector_for_potential_operators.hpp, default_single_quadrature_rule_family.cpp, default_single_quadrature_rule_family.hpp, default_test_kernel_trial_integral.hpp, default_test_trial_integral.hpp, double_quadrature_rule_family.hpp, dune_basis_helper.hpp, evaluator_for_integral_operators.hpp, explicit_instantiation.hpp, initialize_interpolator_for_modified_helmholtz_3d_kernels.hpp, kernel_trial_integral.hpp, kernel_trial_integrator.hpp, lagrange_scalar_basis.hpp, lagrange_scalar_shapeset.hpp, local_assembler_for_grid_functions.hpp, local_assembler_for_integral_operators.hpp, local_assembler_for_local_operators.hpp, local_assembler_for_potential_operators.hpp, modified_helmholtz_3d_hypersingular_integrand_functor.hpp, modified_helmholtz_3d_hypersingular_transformation_functor_2.hpp, modified_maxwell_3d_single_layer_operators_transformation_functor.hpp, nonseparable_numerical_test_kernel_trial_integrator.hpp, numerical_kernel_trial_integrator.hpp, numerical_quadrature.hpp, numerical_quadrature_strategy.hpp, numerical_quadrature_strategy_imp.hpp, numerical_test_function_integrator.hpp, numerical_test_trial_integrator.hpp, opencl_handler.cpp, opencl_handler.hpp, opencl_options.hpp, parallelization_options.hpp, piecewise_constant_scalar_basis.hpp, piecewise_linear_continuous_scalar_basis.hpp, quadrature_descriptor_selector_factory.hpp, quadrature_descriptor_selector_for_grid_functions.hpp, quadrature_descriptor_selector_for_integral_operators.hpp, quadrature_descriptor_selector_for_local_operators.hpp, quadrature_descriptor_selector_for_potential_operators.hpp, quadrature_strategy.hpp, raviart_thomas_0_basis.hpp, scalar_traits.hpp, separable_numerical_test_kernel_trial_integrator.hpp, serial_blas_region.cpp, serial_blas_region.hpp, shape_transformation_functor_wrappers.hpp, shared_ptr.hpp, single_quadrature_rule_family.hpp, test_function_integrator.hpp, test_kernel_trial_integral.hpp, test_kernel_trial_integrator.hpp, test_trial_integral.hpp, test_trial_integrator.hpp, typical_test_scalar_kernel_trial_integral.hpp, verbosity_level.hpp
* `lib/fiber/CL`: cl.hpp, commontypes.h, opencl.h
* `lib/fiber/quadrature`: gauss1D.hpp, mat.hpp
* `lib/fmm`: chebychev_tools.hpp, fmm_common.hpp, interaction_list.hpp
* `lib/grid`: concrete_domain_index.hpp, concrete_element_mapper.hpp, concrete_entity.hpp, concrete_entity_decl.hpp, concrete_entity_pointer.hpp, concrete_geometry_factory.hpp, concrete_id_set.hpp, concrete_index_set.hpp, concrete_range_entity_iterator.hpp, concrete_subentity_iterator.hpp, concrete_vtk_writer.hpp, domain_index.cpp, domain_index.hpp, dune.hpp, eigen_helpers.hpp, entity.hpp, entity_iterator.hpp, entity_pointer.hpp, geometry.hpp, geometry_factory.hpp, geometry_imp.hpp, geometry_type.hpp, grid.hpp, grid_factory.hpp, grid_parameters.hpp, grid_view.hpp, id_set.hpp, index_set.hpp, mapper.hpp, max_distance.hpp, p0_vector_vtk_function.hpp, p1_vector_vtk_function.hpp, ray_triangle_intersection.hpp, reverse_element_mapper.cpp, reverse_element_mapper.hpp, vtk_writer.hpp, vtk_writer_helper.cpp, vtk_writer_helper.hpp
* `lib/grid/bempp_grid`: bempp_grid_types.hpp, bempp_triangle_grid.hpp, bempp_triangle_grid_imp.hpp, test_bempp_grid.cpp, test_grid.h
* `lib/grid/bempp_grid/triangle_imp`: bempp_grid_entity.hpp, bempp_grid_entity_pointer.hpp, bempp_grid_entity_seed.hpp, bempp_grid_geometry.hpp, bempp_grid_id_set.hpp
* `lib/hmat`: compressed_matrix.hpp, eigen_fwd.hpp, geometry.hpp, geometry_data_type.hpp, geometry_data_type_impl.hpp, geometry_interface.hpp, hmatrix_compressor.hpp, hmatrix_dense_compressor.hpp, math_helper.hpp, math_helper_impl.hpp, point_impl.hpp, scalar_traits.hpp, shared_ptr.hpp
* `lib/operators`: abstract_identity_operator.hpp, abstract_maxwell_identity_operator.hpp, helmholtz_3d_far_field_double_layer_potential_operator.hpp, helmholtz_3d_far_field_single_layer_potential_operator.hpp, helmholtz_3d_potential_operator_base.hpp, helmholtz_3d_potential_operator_base_imp.hpp, laplace_3d_double_layer_gradient_potential_operator.hpp, laplace_3d_double_layer_potential_operator.hpp, laplace_3d_potential_operator_base.hpp, laplace_3d_potential_operator_base_imp.hpp, laplace_3d_single_layer_gradient_potential_operator.hpp, laplace_3d_single_layer_potential_operator.hpp, laplace_operators.hpp, maxwell_3d_double_layer_potential_operator.hpp, maxwell_3d_far_field_double_layer_potential_operator.hpp, maxwell_3d_far_field_single_layer_potential_operator.hpp, maxwell_3d_single_layer_potential_operator.hpp, maxwell_operators.hpp, modified_helmholtz_3d_double_layer_potential_operator.hpp, modified_helmholtz_3d_potential_operator_base.hpp, modified_helmholtz_3d_potential_operator_base_imp.hpp, modified_helmholtz_3d_single_layer_potential_operator.hpp, modified_helmholtz_operators.hpp
* `lib/space`: buffa_christiansen_vector_space.hpp, nedelec_0_vector_space.hpp, nedelec_0_vector_space_barycentric.hpp, piecewise_constant_dual_grid_discontinuous_scalar_space.hpp, piecewise_constant_dual_grid_scalar_space.hpp, piecewise_constant_scalar_space.hpp, piecewise_constant_scalar_space_barycentric.hpp, piecewise_linear_continuous_scalar_space.hpp, piecewise_linear_continuous_scalar_space_barycentric.hpp, piecewise_linear_discontinuous_scalar_space.hpp, piecewise_linear_scalar_space.cpp, piecewise_linear_scalar_space.hpp, piecewise_polynomial_continuous_scalar_space.hpp, raviart_thomas_0_vector_space.hpp, raviart_thomas_0_vector_space_barycentric.hpp, rotated_buffa_christiansen_vector_space.hpp, rwg_vector_space_barycentric.hpp, scalar_space.cpp, scalar_space.hpp, scaled_nedelec_0_vector_space.hpp, scaled_nedelec_0_vector_space_barycentric.hpp, space_helper.hpp, unit_scalar_space.hpp
* `python/bempp`: __init__.py
* `python/bempp/api/_fmm`: __init__.py, interaction_list.py, octree.py
* `python/bempp/api/assembly`: __init__.py
* `python/bempp/api/assembly/test`: __init__.py, test_assembler.py, test_blocked_boundary_operator.py, test_boundary_operator.py, test_discrete_boundary_operator.py, test_grid_function.py
* `python/bempp/api/common`: __init__.py
* `python/bempp/api/external`: __init__.py
* `python/bempp/api/fenics_interface`: __init__.py
* `python/bempp/api/fenics_interface/test`: __init__.py, test_coupling.py
* `python/bempp/api/file_interfaces`: __init__.py
* `python/bempp/api/grid`: __init__.py, entity.py, entity_iterator.py, id_set.py
* `python/bempp/api/grid/test`: __init__.py, test_grid.py, test_grid_factory.py
* `python/bempp/api/hmat`: __init__.py
* `python/bempp/api/hmat/test`: __init__.py, test_hmatrix_assembly.py
* `python/bempp/api/integration`: __init__.py
* `python/bempp/api/linalg`: __init__.py, spectral.py
* `python/bempp/api/operators`: __init__.py
* `python/bempp/api/operators/boundary`: __init__.py
* `python/bempp/api/operators/boundary/test`: __init__.py, test_laplace.py, test_maxwell.py, test_modified_helmholtz.py
* `python/bempp/api/operators/far_field`: __init__.py, helmholtz.py, maxwell.py
* `python/bempp/api/operators/potential`: __init__.py, helmholtz.py, laplace.py, maxwell.py, modified_helmholtz.py
* `python/bempp/api/shapes`: __init__.py, letters.py
* `python/bempp/api/space`: __init__.py, shapeset.py
* `python/bempp/api/space/test`: __init__.py, test_barycentric_spaces.py, test_maxwell_spaces.py
* `python/bempp/api/test`: __init__.py, test_helmholtz.py, test_laplace.py, test_maxwell.py
* `python/bempp/api/utils`: __init__.py, ipython.py, which.py
