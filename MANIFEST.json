{
 "claims": [
  {
   "property": "C01",
   "status": "proved",
   "theorems": [
    "Momentum.C01_transformPoint_mul",
    "Momentum.C01_mul_assoc",
    "Momentum.C01_identity"
   ],
   "note": ""
  },
  {
   "property": "C02",
   "status": "proved",
   "theorems": [
    "Momentum.C02_inverse",
    "Momentum.C02_inverse_mul"
   ],
   "note": ""
  },
  {
   "property": "C03",
   "status": "proved",
   "theorems": [
    "Momentum.C03_toMatrix",
    "Momentum.C03_affine",
    "Momentum.C03_toMatrix_determines",
    "Momentum.C03_isRotation",
    "Momentum.C03_fromMatrix_toMatrix"
   ],
   "note": ""
  },
  {
   "property": "C04",
   "status": "proved",
   "theorems": [
    "Momentum.C04_chain_exists_unique",
    "Momentum.C04_state_defined",
    "Momentum.C04_world_is_chain_product",
    "Momentum.C04_world_point",
    "Momentum.C04_local_transform"
   ],
   "note": ""
  },
  {
   "property": "C05",
   "status": "proved",
   "theorems": [
    "Momentum.C05_transformAtoB",
    "Momentum.C05_transformAtoB_world"
   ],
   "note": ""
  },
  {
   "property": "C06",
   "status": "proved",
   "theorems": [
    "Momentum.C06_isAncestor",
    "Momentum.C06_isAncestor_out_of_range",
    "Momentum.C06_isAncestor_order"
   ],
   "note": ""
  },
  {
   "property": "C07",
   "status": "partial",
   "theorems": [
    "Momentum.C07_commonAncestor_partial",
    "Momentum.C07_commonAncestor_returns",
    "Momentum.C07_forest_counterexample"
   ],
   "note": "The lowest-common-ancestor statement is proved whenever a common ancestor exists; for joints of different trees the code returns a wrong joint (C07_forest_counterexample)."
  },
  {
   "property": "C08",
   "status": "proved",
   "theorems": [
    "Momentum.C08_children_recursive",
    "Momentum.C08_children_direct",
    "Momentum.C08_children_out_of_range"
   ],
   "note": ""
  },
  {
   "property": "C09",
   "status": "proved",
   "theorems": [
    "Momentum.C09_reported_derivative",
    "Momentum.C09_unaffected",
    "Momentum.C09_dirty_rejected"
   ],
   "note": ""
  },
  {
   "property": "C10",
   "status": "proved",
   "theorems": [
    "Momentum.C10_rotation_order",
    "Momentum.C10_rotation_axes"
   ],
   "note": ""
  },
  {
   "property": "C11",
   "status": "proved",
   "theorems": [
    "Momentum.C11_eulerXYZ",
    "Momentum.C11_eulerZYX",
    "Momentum.C11_eulerGeneric",
    "Momentum.C11_optimised_agrees",
    "Momentum.C11_isRotation"
   ],
   "note": ""
  },
  {
   "property": "C12",
   "status": "partial",
   "theorems": [
    "Momentum.C12_roundtrip_exact",
    "Momentum.C12_roundtrip_gimbal",
    "Momentum.C12_roundtrip_partial",
    "Momentum.C12_band_counterexample"
   ],
   "note": "Exact away from the tolerance band and exactly at gimbal lock; inside the band of width tol only an error bound sqrt(2 tol)+5 tol holds (exactness refuted by C12_band_counterexample)."
  },
  {
   "property": "C13",
   "status": "proved",
   "theorems": [
    "Momentum.C13_apply_affine",
    "Momentum.C13_inverse_reproduces",
    "Momentum.C13_size_errors"
   ],
   "note": ""
  },
  {
   "property": "C14",
   "status": "proved",
   "theorems": [
    "Momentum.C14_split",
    "Momentum.C14_split_defined"
   ],
   "note": ""
  },
  {
   "property": "C15",
   "status": "proved",
   "theorems": [
    "Momentum.C15_subset_apply",
    "Momentum.C15_subset_names",
    "Momentum.C15_subset_valid",
    "Momentum.C15_subset_limits",
    "Momentum.C15_subset_poseConstraints",
    "Momentum.C15_subset_parameterSets",
    "Momentum.C15_subset_blendShapes",
    "Momentum.C15_subset_active"
   ],
   "note": ""
  },
  {
   "property": "C16",
   "status": "proved",
   "theorems": [
    "Momentum.C16_mapped_joint",
    "Momentum.C16_unmapped_joint",
    "Momentum.C16_same_pose",
    "Momentum.C16_active",
    "Momentum.C16_defined",
    "Momentum.C16_drops_blendShapes"
   ],
   "note": ""
  },
  {
   "property": "C17",
   "status": "proved",
   "theorems": [
    "Momentum.C17_names",
    "Momentum.C17_pose",
    "Momentum.C17_pose_exact",
    "Momentum.C17_blend_columns_empty",
    "Momentum.C17_defined",
    "Momentum.C17_replaces",
    "Momentum.C17_sequence",
    "Momentum.C17_face"
   ],
   "note": ""
  },
  {
   "property": "C18",
   "status": "partial",
   "theorems": [
    "Momentum.C18_clamps",
    "Momentum.C18_untouched",
    "Momentum.C18_within_last",
    "Momentum.C18_idempotent",
    "Momentum.C18_never_reads_outside_partial",
    "Momentum.C18_out_of_bounds_counterexample"
   ],
   "note": "Clamping, untouched entries and idempotence are proved in full; never reading outside the vector fails for index == size (C18_out_of_bounds_counterexample) and is proved for valid limits."
  },
  {
   "property": "C19",
   "status": "partial",
   "theorems": [
    "Momentum.C19_nonneg",
    "Momentum.C19_zero_iff_satisfied",
    "Momentum.C19_gradient_partial",
    "Momentum.C19_gradient_error_partial",
    "Momentum.C19_jacobian_partial",
    "Momentum.C19_gradient_weight_counterexample",
    "Momentum.C19_gradient_error_counterexample",
    "Momentum.C19_jacobian_same_parameter_counterexample"
   ],
   "note": "Zero iff satisfied is proved; gradient equals derivative for the limit kinds without ellipsoid and with unit limit weight for linear/half-plane limits; three counterexamples show where the code's gradient differs. Ellipsoid limits are in C73."
  },
  {
   "property": "C20",
   "status": "proved",
   "theorems": [
    "Momentum.C20_influence_conserved",
    "Momentum.C20_total_conserved",
    "Momentum.C20_sorted",
    "Momentum.C20_no_duplicates",
    "Momentum.C20_defined"
   ],
   "note": ""
  },
  {
   "property": "C21",
   "status": "partial",
   "theorems": [
    "Momentum.C21_outcome",
    "Momentum.C21_structure",
    "Momentum.C21_world_partial",
    "Momentum.C21_model_parameters_partial",
    "Momentum.C21_locators",
    "Momentum.C21_capsules",
    "Momentum.C21_rotation_offset_lost",
    "Momentum.C21_translation_turned"
   ],
   "note": "Outcome, hierarchy, joint map, locators and capsules are proved in full; world transforms are kept when disabled joints have only translation offsets and a kept joint below a disabled one is not translated by its parameters or no disabled joint has a pre-rotation.  Both provisos are needed (C21_rotation_offset_lost, C21_translation_turned)."
  },
  {
   "property": "C22",
   "status": "proved",
   "theorems": [
    "Momentum.C22_succeeds_iff",
    "Momentum.C22_skeleton",
    "Momentum.C22_attachments",
    "Momentum.C22_skinning",
    "Momentum.C22_parameters",
    "Momentum.C22_joint_parameters",
    "Momentum.C22_pose_unchanged",
    "Momentum.C22_offsets_lost",
    "Momentum.C22_active_flags_lost"
   ],
   "note": "Everything the statement lists is proved for characters with indices in range; two further effects are defects of the code outside the statement: constant offsets and activity flags of the parameter transform are lost (C22_offsets_lost, C22_active_flags_lost)."
  },
  {
   "property": "C23",
   "status": "partial",
   "theorems": [
    "Momentum.C23_valid_partial",
    "Momentum.C23_joints",
    "Momentum.C23_terminates_partial",
    "Momentum.C23_orphan_never_returns",
    "Momentum.C23_endless_loop",
    "Momentum.C23_own_parent"
   ],
   "note": "Validity is proved when no joint shares its parent's name (otherwise C23_own_parent), the joints of the result are characterised, and termination is proved when every replaced target joint has its own or its parent's name in the result; otherwise the code loops forever (C23_orphan_never_returns, C23_endless_loop)."
  },
  {
   "property": "C24",
   "status": "partial",
   "theorems": [
    "Momentum.C24_poses",
    "Momentum.C24_skinned",
    "Momentum.C24_locators",
    "Momentum.C24_capsules",
    "Momentum.C24_character",
    "Momentum.C24_inverse_bind_pose",
    "Momentum.C24_blend_shape_not_scaled"
   ],
   "note": "Proved for joints, skinned vertices, locators, capsules and inverse bind pose; blend shapes are handed on unscaled, so a character with blend shapes is not skinned to the scaled vertices (C24_blend_shape_not_scaled)."
  },
  {
   "property": "C25",
   "status": "proved",
   "theorems": [
    "Momentum.C25_blend",
    "Momentum.C25_schedule",
    "Momentum.C25_identity",
    "Momentum.C25_inverse",
    "Momentum.C25_inverse_vertex",
    "Momentum.C25_bind_pose",
    "Momentum.C25_mesh",
    "Momentum.C25_mesh_without_normals"
   ],
   "note": "For skin weight rows with indices in range and non-zero weights first; the mesh version reads normals out of range for a mesh without normals (C25_mesh_without_normals)."
  },
  {
   "property": "C26",
   "status": "proved",
   "theorems": [
    "Momentum.C26_defined",
    "Momentum.C26_factor",
    "Momentum.C26_reset_forgets_lambda",
    "Momentum.C26_transpose_times_wrong_column",
    "Momentum.C26_transpose_times"
   ],
   "note": "For column selections without repeated columns (the code checks this only in debug builds).  Two defects outside the statement are recorded: reset() drops the regularisation (C26_reset_forgets_lambda) and ColumnIndexedMatrix::transpose_times ignores the selection (C26_transpose_times_wrong_column)."
  },
  {
   "property": "C27",
   "status": "proved",
   "theorems": [
    "Momentum.C27_diagonal",
    "Momentum.C27_regularised",
    "Momentum.C27_minimiser",
    "Momentum.C27_order"
   ],
   "note": "For histories of full column rank or a non-zero regularisation."
  },
  {
   "property": "C28",
   "status": "partial",
   "theorems": [
    "Momentum.C28_banded_partial",
    "Momentum.C28_banded_minimiser_partial",
    "Momentum.C28_banded_dense_partial",
    "Momentum.C28_banded_order_counterexample",
    "Momentum.C28_block_sizes",
    "Momentum.C28_block_partial",
    "Momentum.C28_block_minimiser_partial",
    "Momentum.C28_block_dense_partial",
    "Momentum.C28_block_reset",
    "Momentum.C28_block_tolerance_counterexample",
    "Momentum.C28_block_atTimesBI_counterexample",
    "Momentum.C28_block_gap_counterexample",
    "Momentum.C28_block_no_gap",
    "Momentum.C28_block_defined"
   ],
   "note": "Banded solver: proved for call orders in which a block never ends before an earlier one it shares columns with; refuted otherwise (C28_banded_order_counterexample).  Block solver: proved when the absolute zero tolerance makes no difference; refuted for tiny columns (C28_block_tolerance_counterexample); At_times_b_i is wrong and skipped block indices fail the checks."
  },
  {
   "property": "C29",
   "status": "partial",
   "theorems": [
    "Momentum.C29_times_vec",
    "Momentum.C29_inverse_times_vec",
    "Momentum.C29_logDeterminant_partial",
    "Momentum.C29_negative_sigma_counterexample"
   ],
   "note": "times_vec and inverse_times_vec are proved for every sigma (non-zero for the inverse), logDeterminant for positive sigma; for negative sigma it can fail its check (C29_negative_sigma_counterexample)."
  },
  {
   "property": "C30",
   "status": "proved",
   "theorems": [
    "Momentum.C30_deriv",
    "Momentum.C30_increasing",
    "Momentum.C30_refused",
    "Momentum.C30_cases",
    "Momentum.C30_negative_alpha",
    "Momentum.C30_jump_at_two"
   ],
   "note": "For every alpha and every c > 0 over the reals.  Two findings beside the statement: every alpha below -1e-9 is treated as minus infinity (C30_negative_alpha) and the L2 case is twice the limit of the general formula (C30_jump_at_two)."
  },
  {
   "property": "C31",
   "status": "proved",
   "theorems": [
    "Momentum.C31_normals",
    "Momentum.C31_unit",
    "Momentum.C31_bad_faces",
    "Momentum.C31_order",
    "Momentum.C31_rotation",
    "Momentum.C31_nan_skipped",
    "Momentum.C31_nan_counterexample"
   ],
   "note": "Over the reals, with a NaN-extended version of the accumulation: faces with NaN y or z coordinates are skipped (C31_nan_skipped), a NaN x coordinate is not noticed (C31_nan_counterexample, beside the statement)."
  },
  {
   "property": "C32",
   "status": "proved",
   "theorems": [
    "Momentum.C32_iterations",
    "Momentum.C32_history",
    "Momentum.C32_reported_count",
    "Momentum.C32_returned_error_counterexample"
   ],
   "note": "loop over an arbitrary iteration; exact arithmetic; returned-error claim refuted as documented (finding)"
  },
  {
   "property": "C33",
   "status": "proved",
   "theorems": [
    "Momentum.C33_subset",
    "Momentum.C33_gauss_newton",
    "Momentum.C33_qr"
   ],
   "note": "subset, dense Gauss-Newton and QR iterations; LLT is any function solving SPD systems; sparse Gauss-Newton path not modelled"
  },
  {
   "property": "C34",
   "status": "proved",
   "theorems": [
    "Momentum.C34_subset",
    "Momentum.C34_qr",
    "Momentum.C34_gauss_newton"
   ],
   "note": "line search of the three Gauss-Newton solvers; exact arithmetic"
  },
  {
   "property": "C35",
   "status": "partial",
   "theorems": [
    "Momentum.C35_build_partial",
    "Momentum.C35_build_small",
    "Momentum.C35_build_stack_overflow"
   ],
   "note": "Tree structure, permutation, capacity, tight boxes and offsets are proved for every list of boxes on which the build does not overflow its fixed 128-entry stack; up to 128 boxes that never happens, for 129 it can (C35_build_stack_overflow)."
  },
  {
   "property": "C36",
   "status": "partial",
   "theorems": [
    "Momentum.C36_query_box_partial",
    "Momentum.C36_query_box_small",
    "Momentum.C36_query_buffer_partial",
    "Momentum.C36_query_ray_partial",
    "Momentum.C36_query_stack_overflow",
    "Momentum.C36_buffer_overrun",
    "Momentum.C36_ray_empty_tree"
   ],
   "note": "Completeness and no duplicates are proved for every history of builds and refits; stack overflow is possible above 64 primitives (C36_query_stack_overflow), buffer overrun for leaf capacity 4 or 8 (C36_buffer_overrun), out-of-range read for ray queries on empty trees (C36_ray_empty_tree)."
  },
  {
   "property": "C37",
   "status": "partial",
   "theorems": [
    "Momentum.C37_pairs_partial",
    "Momentum.C37_pairs_across_leaves",
    "Momentum.C37_pairs_of_two_trees",
    "Momentum.C37_stop_ignored",
    "Momentum.C37_pairs_missed"
   ],
   "note": "Exactly-once reporting is proved for leaf capacity 1 and any callback, and across leaves for any capacity; the callback's stop request is ignored (C37_stop_ignored) and pairs inside one leaf are missed (C37_pairs_missed)."
  },
  {
   "property": "C38",
   "status": "partial",
   "theorems": [
    "Momentum.C38_closest_point",
    "Momentum.C38_closest_point_inside",
    "Momentum.C38_closest_hit_partial",
    "Momentum.C38_any_hit_partial",
    "Momentum.C38_all_hits_partial"
   ],
   "note": "Closest point is proved in full for nonempty trees; the ray queries are proved up to the stack overflow of C36, for directions without zero components."
  },
  {
   "property": "C39",
   "status": "proved",
   "theorems": [
    "Momentum.C39_refit_keeps_containment",
    "Momentum.C39_refit_total"
   ],
   "note": ""
  },
  {
   "property": "C40",
   "status": "proved",
   "theorems": [
    "Momentum.C40_intersects_ray",
    "Momentum.C40_intersects_branchless",
    "Momentum.C40_monotone",
    "Momentum.C40_box_box"
   ],
   "note": "For directions without zero components and nonempty boxes."
  },
  {
   "property": "C41",
   "status": "proved",
   "theorems": [
    "Momentum.C41_closest",
    "Momentum.C41_packet",
    "Momentum.C41_degenerate_counterexample"
   ],
   "note": "For triangles whose corners are not on a line, over an arbitrary ordered field; scalar and packet version."
  },
  {
   "property": "C42",
   "status": "proved",
   "theorems": [
    "Momentum.C42_sound",
    "Momentum.C42_complete",
    "Momentum.C42_hit",
    "Momentum.C42_short_direction_counterexample"
   ],
   "note": "Soundness, and completeness for transversal hits (determinant of the normalised direction above the tolerance)."
  },
  {
   "property": "C43",
   "status": "partial",
   "theorems": [
    "Momentum.C43_closest_partial",
    "Momentum.C43_parallel",
    "Momentum.C43_sound",
    "Momentum.C43_no_zero_division",
    "Momentum.C43_distance",
    "Momentum.C43_parallel_reject_counterexample",
    "Momentum.C43_point_counterexample",
    "Momentum.C43_short_counterexample",
    "Momentum.C43_edge_range",
    "Momentum.C43_edge_edge",
    "Momentum.C43_edge_distance",
    "Momentum.C43_edge_short_counterexample"
   ],
   "note": "Every result is sound; the result is a closest pair for segments with |d1 x d2|^2 above the tolerance, and for exactly parallel ones when a result is reported, up to rounding small parameters to zero. Counterexamples for parallel early rejection, a degenerate second segment, short segments."
  },
  {
   "property": "C44",
   "status": "proved",
   "theorems": [
    "Momentum.C44_box",
    "Momentum.C44_box_tight",
    "Momentum.C44_overlap",
    "Momentum.C44_broad_phase",
    "Momentum.C44_complete_partial",
    "Momentum.C44_update",
    "Momentum.C44_update_valid",
    "Momentum.C44_crossing_axes_counterexample",
    "Momentum.C44_tapered_counterexample"
   ],
   "note": "Box containment and tightness, soundness of the overlap test (hence of the broad phase), capsules move with their joints. Converse proved for constant radii, refuted in general."
  },
  {
   "property": "C45",
   "status": "proved",
   "theorems": [
    "Momentum.C45_build",
    "Momentum.C45_closest",
    "Momentum.C45_accept",
    "Momentum.C45_normal",
    "Momentum.C45_color",
    "Momentum.C45_sphere",
    "Momentum.C45_sphere_negative",
    "Momentum.C45_color_counterexample",
    "Momentum.C45_far_counterexample",
    "Momentum.C45_accept_counterexample",
    "Momentum.C45_sphere_counterexample"
   ],
   "note": "Holds for queries, radii and acceptance functions that keep clear of the filling points; counterexamples for the rest. The order in which std::partition and std::nth_element leave the elements is arbitrary within their contract. The AVX copy of the algorithm is not modelled separately."
  },
  {
   "property": "C46",
   "status": "proved",
   "theorems": [
    "Momentum.C46_all",
    "Momentum.C46_all_bounded",
    "Momentum.C46_mismatch",
    "Momentum.C46_active",
    "Momentum.C46_negative_bound_counterexample"
   ],
   "note": "For maxDelta >= 0; a negative bound is undefined behaviour in the active-set version (C46_negative_bound_counterexample)."
  },
  {
   "property": "C47",
   "status": "proved",
   "theorems": [
    "Momentum.C47_set",
    "Momentum.C47_size_error",
    "Momentum.C47_short_weights_counterexample"
   ],
   "note": "For vertices with at least as many weights as joints (or eight weights); otherwise the code reads out of bounds (C47_short_weights_counterexample)."
  },
  {
   "property": "C48",
   "status": "proved",
   "theorems": [
    "Momentum.C48_motion",
    "Momentum.C48_motion_identity",
    "Momentum.C48_identity_vector",
    "Momentum.C48_identity_identity"
   ],
   "note": ""
  },
  {
   "property": "C49",
   "status": "proved",
   "theorems": [
    "Momentum.C49_angle",
    "Momentum.C49_half_turn",
    "Momentum.C49_length",
    "Momentum.C49_nan"
   ],
   "note": ""
  },
  {
   "property": "C50",
   "status": "partial",
   "theorems": [
    "Momentum.C50_quaternionToEuler_partial",
    "Momentum.C50_gimbal_counterexample"
   ],
   "note": "Exact when |pitch| is not 90 degrees; at 90 degrees the code returns angles of a different rotation (C50_gimbal_counterexample)."
  },
  {
   "property": "C51",
   "status": "proved",
   "theorems": [
    "Momentum.C51_quat_rotvec_quat",
    "Momentum.C51_quat_rotvec_quat_small",
    "Momentum.C51_rotvec_quat_rotvec"
   ],
   "note": ""
  },
  {
   "property": "C52",
   "status": "partial",
   "theorems": [
    "Momentum.C52_shape",
    "Momentum.C52_skinning",
    "Momentum.C52_baked_mesh",
    "Momentum.C52_baking_ignored"
   ],
   "note": "Shape and skinning are proved in full; posing a baked character ignores the baked mesh because the blend shape stays attached (C52_baking_ignored)."
  },
  {
   "property": "C53",
   "status": "partial",
   "theorems": [
    "Momentum.C53_poses",
    "Momentum.C53_no_root_translation",
    "Momentum.C53_skinned",
    "Momentum.C53_root_translation",
    "Momentum.C53_second_root"
   ],
   "note": "Proved for skeletons whose first joint is the only root, with the root's translation parameters rotated along (or zero); otherwise refuted (C53_root_translation, C53_second_root)."
  },
  {
   "property": "C54",
   "status": "proved",
   "theorems": [
    "Momentum.C54_subset",
    "Momentum.C54_gauss_newton",
    "Momentum.C54_qr",
    "Momentum.C54_same_step"
   ],
   "note": "dense paths; LLT is any function solving SPD systems; sparse path not modelled"
  },
  {
   "property": "C55",
   "status": "proved",
   "theorems": [
    "Momentum.C55_stack",
    "Momentum.C55_jtjr",
    "Momentum.C55_error"
   ],
   "note": "exact arithmetic; error functions are arbitrary writers of their own block"
  },
  {
   "property": "C56",
   "status": "proved",
   "theorems": [
    "Momentum.C56_decrease",
    "Momentum.C56_solve"
   ],
   "note": "exact arithmetic, on the modelled QR solver"
  },
  {
   "property": "C57",
   "status": "proved",
   "theorems": [
    "Momentum.C57_gradient",
    "Momentum.C57_jacobian",
    "Momentum.C57_jacobian_gradient",
    "Momentum.C57_residual_error",
    "Momentum.C57_position",
    "Momentum.C57_plane",
    "Momentum.C57_orientation",
    "Momentum.C57_aimDist",
    "Momentum.C57_aimDir",
    "Momentum.C57_fixedAxisDiff",
    "Momentum.C57_fixedAxisCos",
    "Momentum.C57_fixedAxisAngle",
    "Momentum.C57_normal",
    "Momentum.C57_flags",
    "Momentum.C57_small_values_dropped",
    "Momentum.C57_total_gradient",
    "Momentum.C57_constraint_gradient"
   ],
   "note": "values within the isZero tolerance are exempt (C57_small_values_dropped); points where a constraint function is not differentiable are excluded"
  },
  {
   "property": "C58",
   "status": "partial",
   "theorems": [
    "Momentum.C58_gradient_partial",
    "Momentum.C58_jacobian",
    "Momentum.C58_two_jacobian_residual",
    "Momentum.C58_rows_unset",
    "Momentum.C58_gradient_wrong"
   ],
   "note": "Jacobian, residuals, rows and error proved in full for non-negative weights; the gradient is proved to be the derivative exactly when the parameter weight is 0 or 1, the parameter is on target or the function has weight 0 (the code's factor is wrong otherwise, C58_gradient_wrong)"
  },
  {
   "property": "C59",
   "status": "partial",
   "theorems": [
    "Momentum.C59_gradient",
    "Momentum.C59_jacobian_partial",
    "Momentum.C59_jacobian_wrong"
   ],
   "note": "gradient proved in full; Jacobian proved for non-negative weights, refuted for negative ones (C59_jacobian_wrong)"
  },
  {
   "property": "C60",
   "status": "partial",
   "theorems": [
    "Momentum.C60_density",
    "Momentum.C60_set_valid",
    "Momentum.C60_error",
    "Momentum.C60_gradient",
    "Momentum.C60_jacobian",
    "Momentum.C60_mean_shape",
    "Momentum.C60_history_partial",
    "Momentum.C60_error_jumps",
    "Momentum.C60_stale_map",
    "Momentum.C60_null_prior",
    "Momentum.C60_no_modes",
    "Momentum.C60_duplicate_names"
   ],
   "note": "density, error, gradient, Jacobian and mean shape proved for a freshly set prior, and for any history of priors with the same distinct names; false for histories of priors with different names (C60_stale_map)"
  },
  {
   "property": "C61",
   "status": "proved",
   "theorems": [
    "Momentum.BinaryIo.C61_mmo_roundtrip",
    "Momentum.BinaryIo.C61_mmo_written",
    "Momentum.BinaryIo.C61_mmo_truncated",
    "Momentum.BinaryIo.C61_truncation_unnoticed",
    "Momentum.BinaryIo.C61_blend_shape_roundtrip",
    "Momentum.BinaryIo.C61_blend_shape_malformed",
    "Momentum.BinaryIo.C61_mppca_roundtrip",
    "Momentum.BinaryIo.C61_map_motion",
    "Momentum.BinaryIo.C61_character_roundtrip",
    "Momentum.BinaryIo.C61_auxiliary_roundtrip",
    "Momentum.BinaryIo.C61_empty_name",
    "Momentum.BinaryIo.C61_no_columns"
   ],
   "note": "motion files: round trips, truncation, mapping to characters; blend shape and mixture model files: round trips; findings on malformed files"
  },
  {
   "property": "C62",
   "status": "proved",
   "theorems": [
    "Momentum.SequenceFunction.C62_sets",
    "Momentum.SequenceFunction.C62_split",
    "Momentum.SequenceFunction.C62_join_split",
    "Momentum.SequenceFunction.C62_split_join",
    "Momentum.SequenceFunction.C62_gradient",
    "Momentum.SequenceFunction.C62_jacobian",
    "Momentum.SequenceFunction.C62_add_one",
    "Momentum.SequenceFunction.C62_add_all",
    "Momentum.SequenceFunction.C62_jacobian_reused_counterexample",
    "Momentum.SequenceFunction.C62_no_frames_counterexample"
   ],
   "note": "for every sequence and all error functions that have these properties themselves; the Jacobian for matrices that are zero or made anew (C62_jacobian_reused_counterexample shows what happens otherwise)"
  },
  {
   "property": "C63",
   "status": "proved",
   "theorems": [
    "Momentum.C63_state_gradient",
    "Momentum.C63_state_jacobian",
    "Momentum.C63_params_gradient",
    "Momentum.C63_params_jacobian",
    "Momentum.C63_clip_gradient"
   ],
   "note": "Both smoothness terms; the state Jacobian for non-negative weights. C63_clip_gradient is an instance with C62 for a four frame clip."
  },
  {
   "property": "C64",
   "status": "proved",
   "theorems": [
    "Momentum.C64_pipeline",
    "Momentum.C64_ends",
    "Momentum.C64_exclusion",
    "Momentum.C64_in_order",
    "Momentum.C64_sequence"
   ],
   "note": "for all schedules; dispenso's parallel_for and sequential consistency trusted"
  },
  {
   "property": "C65",
   "status": "proved",
   "theorems": [
    "Momentum.SequenceSolver.C65_step",
    "Momentum.SequenceSolver.C65_line_search",
    "Momentum.SequenceSolver.C65_parallel",
    "Momentum.SequenceSolver.C65_no_per_frame_counterexample",
    "Momentum.SequenceSolver.C65_line_search_increase_counterexample"
   ],
   "note": "Numbers are real. C65_step, C65_line_search and C65_parallel; sequences without per-frame parameters are excluded (C65_no_per_frame_counterexample)."
  },
  {
   "property": "C66",
   "status": "partial",
   "theorems": [
    "Momentum.MultiposeFunction.C66_layout",
    "Momentum.MultiposeFunction.C66_entries",
    "Momentum.MultiposeFunction.C66_split",
    "Momentum.MultiposeFunction.C66_join",
    "Momentum.MultiposeFunction.C66_join_split",
    "Momentum.MultiposeFunction.C66_universal_set",
    "Momentum.MultiposeFunction.C66_locator_set",
    "Momentum.MultiposeFunction.C66_enabled_partial",
    "Momentum.MultiposeFunction.C66_error",
    "Momentum.MultiposeFunction.C66_gradient",
    "Momentum.MultiposeFunction.C66_jacobian",
    "Momentum.MultiposeSolver.C66_step_partial",
    "Momentum.MultiposeSolver.C66_idle_pose_counterexample",
    "Momentum.MultiposeFunction.C66_enabled_counterexample",
    "Momentum.MultiposeFunction.C66_universal_counterexample",
    "Momentum.MultiposeFunction.C66_jacobian_reused_counterexample"
   ],
   "note": "layout, joining, sets, error, gradient and Jacobian proved; the step for poses that all have an error function and columns the absolute tolerance does not skip, the count of actual parameters for the cases in which it is right; counterexamples for the rest"
  },
  {
   "property": "C67",
   "status": "partial",
   "theorems": [
    "Momentum.C67_construct",
    "Momentum.C67_size",
    "Momentum.C67_collision_pairs",
    "Momentum.C67_error",
    "Momentum.C67_returns",
    "Momentum.C67_rows",
    "Momentum.C67_jacobian_residual",
    "Momentum.C67_error_exact",
    "Momentum.C67_gradient_partial",
    "Momentum.C67_jacobian_twice",
    "Momentum.C67_jacobian_counterexample",
    "Momentum.C67_scale_counterexample",
    "Momentum.C67_forest_counterexample"
   ],
   "note": "the gradient for parameters that scale a joint and for tapered capsules is missing: it is not the derivative there (C67_scale_counterexample); the Jacobian is twice the derivative (C67_jacobian_counterexample); more than 128 capsules: the evaluations may run out of the build stack"
  },
  {
   "property": "C68",
   "status": "partial",
   "theorems": [
    "Momentum.C68_error",
    "Momentum.C68_history",
    "Momentum.C68_gradient",
    "Momentum.C68_jacobian",
    "Momentum.C68_plane_jacobian",
    "Momentum.C68_normal_partial",
    "Momentum.C68_returns",
    "Momentum.C68_shape_gradient_wrong",
    "Momentum.C68_two_bones_gradient_wrong",
    "Momentum.C68_missing_blend_shape"
   ],
   "note": "constraints along vertex normals: only rigid vertices without shapes; the rest is false (C68_shape_gradient_wrong, C68_two_bones_gradient_wrong)"
  },
  {
   "property": "C69",
   "status": "proved",
   "theorems": [
    "Momentum.C69_safe",
    "Momentum.C69_returned",
    "Momentum.C69_history",
    "Momentum.C69_wait_free",
    "Momentum.C69_swap_alone",
    "Momentum.C69_full_dropped",
    "Momentum.C69_joint_range_wrong"
   ],
   "note": "joint indices in range; sequentially consistent memory"
  },
  {
   "property": "C70",
   "status": "partial",
   "theorems": [
    "Momentum.C70_error_position",
    "Momentum.C70_error_position_avx",
    "Momentum.C70_error_plane_avx",
    "Momentum.C70_error_normal",
    "Momentum.C70_jacobian_position",
    "Momentum.C70_jacobian_position_avx",
    "Momentum.C70_jacobian_normal",
    "Momentum.C70_jacobian_plane_avx_partial",
    "Momentum.C70_jacobian_normal_avx",
    "Momentum.C70_gradient_position_avx",
    "Momentum.C70_gradient_plane_avx",
    "Momentum.C70_gradient_position_partial",
    "Momentum.C70_gradient_normal_partial",
    "Momentum.C70_jacobian_rows",
    "Momentum.C70_finishes",
    "Momentum.C70_gradient_weight_wrong",
    "Momentum.C70_gradient_race_wrong",
    "Momentum.C70_gradient_position_weight_wrong",
    "Momentum.C70_plane_error_wrong",
    "Momentum.C70_plane_avx_rows_wrong",
    "Momentum.C70_plane_gradient_wrong",
    "Momentum.C70_plane_jacobian_wrong",
    "Momentum.C70_normal_avx_wrong",
    "Momentum.C70_avx_offset_wrong"
   ],
   "note": "Error and Jacobian proved for all schedules (positions, normals; planes and normals with AVX under stated conditions), gradients of the AVX versions proved; the other gradients only up to the missing weight, SimdPlaneErrorFunction itself is wrong. See the counterexamples."
  },
  {
   "property": "C71",
   "status": "partial",
   "theorems": [
    "Momentum.C71_state_backward",
    "Momentum.C71_state_gradient_partial",
    "Momentum.C71_local_backward",
    "Momentum.C71_local_gradient_partial",
    "Momentum.C71_small_weights_dropped",
    "Momentum.C71_positions_parameters",
    "Momentum.C71_positions_offsets"
   ],
   "note": "What the backward passes return is proved for all inputs; it is the gradient of the weighted sum only when no joint has a non-zero incoming gradient below the tolerance of isZero() (violation proved)."
  },
  {
   "property": "C72",
   "status": "partial",
   "theorems": [
    "Momentum.C72_skin_transforms",
    "Momentum.C72_skin_rest",
    "Momentum.C72_blend_shape",
    "Momentum.C72_parameter_transform",
    "Momentum.C72_inverse_forward",
    "Momentum.C72_inverse_backward",
    "Momentum.C72_inverse_gradient_partial",
    "Momentum.C72_inverse_gradient_iff"
   ],
   "note": "The gradients of skinning, blend shapes and parameter transforms are proved for all inputs. For the inverse parameter transform the claim is false: the backward pass omits the column permutation of the QR factorisation; C72_inverse_gradient_iff proves it correct exactly when the permutation is the identity and C72_inverse_backward says what it computes otherwise."
  },
  {
   "property": "C73",
   "status": "partial",
   "theorems": [
    "Momentum.C73_error_zero_iff",
    "Momentum.C73_gradient_partial",
    "Momentum.C73_jacobian",
    "Momentum.C73_jacobian_frozen",
    "Momentum.C73_scale_wrong",
    "Momentum.C73_other_branch_wrong",
    "Momentum.C73_ellipsoid_wrong",
    "Momentum.C73_not_closest"
   ],
   "note": "error_zero_iff and jacobian are complete; the gradient claim is false of the code for non-balls, scaled ellipsoids and ellipsoids on another branch (three counterexamples) and proved for balls and parameters that fix or carry the ellipsoid"
  },
  {
   "property": "C74",
   "status": "partial",
   "theorems": [
    "Momentum.C74_defined",
    "Momentum.C74_other_parameters_kept",
    "Momentum.C74_relative_pose_kept",
    "Momentum.C74_transformed_partial",
    "Momentum.C74_other_branch_wrong",
    "Momentum.C74_gives_up_random",
    "Momentum.C74_position_unchecked"
   ],
   "note": "The rigid motion is proved for the joints below the last rigid joint and for a solver that finds a placement where there is one (C74_transformed_partial). The full claim is false: other branches may stay behind, and a random placement may be returned."
  },
  {
   "property": "C75",
   "status": "proved",
   "theorems": [
    "Momentum.C75_defined",
    "Momentum.C75_valid",
    "Momentum.C75_parameters",
    "Momentum.C75_pose",
    "Momentum.C75_unmoved",
    "Momentum.C75_locked",
    "Momentum.C75_free",
    "Momentum.C75_extracted",
    "Momentum.C75_round_trip",
    "Momentum.C75_calibrated",
    "Momentum.C75_id_and_locators",
    "Momentum.C75_limits",
    "Momentum.C75_constraints",
    "Momentum.C75_markers_met",
    "Momentum.C75_identity",
    "Momentum.C75_extract_root_wrong"
   ],
   "note": "Reals instead of floats. Joint pre-rotations are unit quaternions where the locators are read back. Locator names must differ for the markers to be met."
  },
  {
   "property": "C76",
   "status": "partial",
   "theorems": [
    "Momentum.C76_cubic_complete",
    "Momentum.C76_cubic_sound",
    "Momentum.C76_cubic_count",
    "Momentum.C76_quadratic",
    "Momentum.C76_quadratic_near",
    "Momentum.C76_quadratic_wrong",
    "Momentum.C76_polynomial",
    "Momentum.C76_avx",
    "Momentum.C76_times_complete",
    "Momentum.C76_times_sound",
    "Momentum.C76_times_count",
    "Momentum.C76_vertex_sound",
    "Momentum.C76_vertex_complete_partial",
    "Momentum.C76_vertex_end",
    "Momentum.C76_edge_sound",
    "Momentum.C76_edge_complete_partial",
    "Momentum.C76_edge_end",
    "Momentum.C76_short_edges",
    "Momentum.C76_in_plane_missed",
    "Momentum.C76_boundary_missed",
    "Momentum.C76_small_missed"
   ],
   "note": "Proved in full: the cubic (complete and sound), the polynomial, agreement of the AVX code, soundness of both collision tests; completeness of the quadratic, of timesCoplanar and of the collision tests outside the tolerances. Motion in a plane, geometry with coefficients below 1e-9, boundary hits and short edges are missed (proved)"
  },
  {
   "property": "C77",
   "status": "partial",
   "theorems": [
    "Momentum.C77_multiply",
    "Momentum.C77_identity",
    "Momentum.C77_multiply_group",
    "Momentum.C77_inverse",
    "Momentum.C77_conjugate",
    "Momentum.C77_normalize",
    "Momentum.C77_rotate",
    "Momentum.C77_matrix",
    "Momentum.C77_euler",
    "Momentum.C77_euler_gradient",
    "Momentum.C77_toEuler_defined",
    "Momentum.C77_toEuler_partial",
    "Momentum.C77_euler_roundtrip",
    "Momentum.C77_toEuler_wrong",
    "Momentum.C77_fromMatrix",
    "Momentum.C77_matrix_roundtrip",
    "Momentum.C77_weights",
    "Momentum.C77_weights_defined",
    "Momentum.C77_blend",
    "Momentum.C77_blend_invariant",
    "Momentum.C77_blend_same",
    "Momentum.C77_blend_rotate"
   ],
   "note": "everything is proved except that Euler angles at gimbal lock belong to another rotation (C77_toEuler_wrong); the eigenvalue solvers are assumed to meet their contracts"
  },
  {
   "property": "C78",
   "status": "proved",
   "theorems": [
    "Momentum.C78_multiply",
    "Momentum.C78_compose",
    "Momentum.C78_parts",
    "Momentum.C78_matrix",
    "Momentum.C78_inverse",
    "Momentum.C78_inverse_defined",
    "Momentum.C78_inverse_wrong",
    "Momentum.C78_blend",
    "Momentum.C78_blend_defined",
    "Momentum.C78_blend_between",
    "Momentum.C78_blend_same",
    "Momentum.C78_multiply_tensors",
    "Momentum.C78_transform_tensors"
   ],
   "note": "rows for exact numbers; the inverse for unit rotations, as C78_inverse_wrong shows it must be"
  },
  {
   "property": "C79",
   "status": "partial",
   "theorems": [
    "Momentum.C79_position",
    "Momentum.C79_orientation",
    "Momentum.C79_state",
    "Momentum.C79_motion_partial",
    "Momentum.C79_position_inputs",
    "Momentum.C79_orientation_inputs",
    "Momentum.C79_motion_inputs",
    "Momentum.C79_motion_wrong",
    "Momentum.C79_position_error",
    "Momentum.C79_orientation_error",
    "Momentum.C79_state_inputs"
   ],
   "note": "positions, orientations, states and motion; for motion only for vectors that vanish at disabled parameters (the full claim is refuted by C79_motion_wrong); pose prior not modelled"
  },
  {
   "property": "C80",
   "status": "partial",
   "theorems": [
    "Momentum.C80_names",
    "Momentum.C80_inputs",
    "Momentum.C80_derivative",
    "Momentum.C80_jacobian",
    "Momentum.C80_gradient",
    "Momentum.C80_constraints",
    "Momentum.C80_constraint_inputs",
    "Momentum.C80_shared_partial",
    "Momentum.C80_shared_wrong"
   ],
   "note": "all of it for a union on its own; the gradient of a solver with other error functions before a union is only right for weight one or gradients that add up to zero (C80_shared_partial, refuted in general by C80_shared_wrong)"
  },
  {
   "property": "C81",
   "status": "partial",
   "theorems": [
    "Momentum.C81_cutoff",
    "Momentum.C81_svd",
    "Momentum.C81_hessian",
    "Momentum.C81_inputs_partial",
    "Momentum.C81_weight_partial",
    "Momentum.C81_rmse",
    "Momentum.C81_exact_fit",
    "Momentum.C81_exact_linear",
    "Momentum.C81_result",
    "Momentum.C81_curvature_wrong",
    "Momentum.C81_weight_wrong"
   ],
   "note": "the derivatives are exact when the Gauss-Newton Hessian is (C81_exact_fit, C81_exact_linear); not in general (C81_curvature_wrong), and not for a weight of zero (C81_weight_wrong)"
  },
  {
   "property": "C82",
   "status": "partial",
   "theorems": [
    "Momentum.C82_construct",
    "Momentum.C82_size",
    "Momentum.C82_history",
    "Momentum.C82_collision_pairs",
    "Momentum.C82_error",
    "Momentum.C82_returns",
    "Momentum.C82_rows",
    "Momentum.C82_gradient_partial",
    "Momentum.C82_jacobian_twice",
    "Momentum.C82_same",
    "Momentum.C82_jacobian_residual",
    "Momentum.C82_forest",
    "Momentum.C82_forest_counterexample"
   ],
   "note": "the gradient is proved to be the derivative for parameters that do not change the scale of joints; the Jacobian is twice the derivative (C82_jacobian_twice) and construction needs a common ancestor (C82_forest)"
  },
  {
   "property": "C83",
   "status": "partial",
   "theorems": [
    "Momentum.C83_closest",
    "Momentum.C83_construct",
    "Momentum.C83_size",
    "Momentum.C83_error",
    "Momentum.C83_error_exact",
    "Momentum.C83_returns",
    "Momentum.C83_crossing",
    "Momentum.C83_rows",
    "Momentum.C83_jacobian_residual",
    "Momentum.C83_gradient_partial",
    "Momentum.C83_jacobian_twice",
    "Momentum.C83_same",
    "Momentum.C83_crossing_counterexample"
   ],
   "note": "Closest points, error and rows are proved for all poses. The derivative property of the gradient is proved in general position, for capsules of constant radius and parameters that do not scale joints (C83_gradient_partial); division by zero for crossing axes is a finding."
  },
  {
   "property": "C84",
   "status": "partial",
   "theorems": [
    "Momentum.LimitsText.C84_roundtrip_partial",
    "Momentum.LimitsText.C84_ellipsoid",
    "Momentum.LimitsText.C84_read_ok",
    "Momentum.LimitsText.C84_pieces",
    "Momentum.LimitsText.C84_append",
    "Momentum.LimitsText.C84_comment",
    "Momentum.LimitsText.C84_other_lines",
    "Momentum.LimitsText.C84_weight_counterexample",
    "Momentum.LimitsText.C84_start_counterexample",
    "Momentum.LimitsText.C84_default_range",
    "Momentum.LimitsText.C84_normal",
    "Momentum.LimitsText.C84_dotted_counterexample"
   ],
   "note": "the round trip is proved for all lists that the format can hold (C84_roundtrip_partial); weights of later pieces, starts of ranges, normals that are not unit and dotted names are lost (counterexamples); printing of numbers is a parameter"
  },
  {
   "property": "C85",
   "status": "partial",
   "theorems": [
    "Momentum.TransformText.C85_sets",
    "Momentum.TransformText.C85_sets_unknown",
    "Momentum.TransformText.C85_constraints",
    "Momentum.TransformText.C85_value",
    "Momentum.TransformText.C85_equation_partial",
    "Momentum.TransformText.C85_names",
    "Momentum.TransformText.C85_active",
    "Momentum.TransformText.C85_self_reference",
    "Momentum.TransformText.C85_unknown_joint",
    "Momentum.TransformText.C85_joint_name",
    "Momentum.TransformText.C85_product_ignored",
    "Momentum.TransformText.C85_reference_counterexample",
    "Momentum.TransformText.C85_order_counterexample",
    "Momentum.TransformText.C85_constants_counterexample"
   ],
   "note": "Proved for all texts in the grammar. As equations only when references point to earlier definitions without constants and there is one constant per definition; otherwise the code computes the values in C85_value and the equations fail (counterexamples). loadMomentumModel and loadModelDefinition are not covered."
  },
  {
   "property": "C86",
   "status": "partial",
   "theorems": [
    "Momentum.LocatorText.C86_round_trip_partial",
    "Momentum.LocatorText.C86_stable",
    "Momentum.LocatorText.C86_colons",
    "Momentum.LocatorText.C86_names_differ_partial",
    "Momentum.LocatorText.C86_limit_origin",
    "Momentum.LocatorText.C86_unnamed_counterexample",
    "Momentum.LocatorText.C86_joint_unchecked_counterexample",
    "Momentum.LocatorText.C86_lines",
    "Momentum.LocatorText.C86_namespace_counterexample",
    "Momentum.LocatorText.C86_rejected_counterexample"
   ],
   "note": "Round trip for names without colons; the origin of the limit is not saved. For every accepted text names differ unless some are empty."
  },
  {
   "property": "C87",
   "status": "partial",
   "theorems": [
    "Momentum.LineReader.C87_sections_partial",
    "Momentum.LineReader.C87_sections_exist",
    "Momentum.LineReader.C87_lines_exist",
    "Momentum.LineReader.C87_definition_partial",
    "Momentum.LineReader.C87_line_ends",
    "Momentum.LineReader.C87_other_header",
    "Momentum.LineReader.C87_last_line_lost",
    "Momentum.LineReader.C87_definition_never_ends",
    "Momentum.LineReader.C87_never_ends"
   ],
   "note": "Exact for files whose lines all have a line end; the code drops a last line without one (C87_last_line_lost) and does not end on files that end with a carriage return (C87_never_ends, C87_definition_never_ends)."
  },
  {
   "property": "C88",
   "status": "partial",
   "theorems": [
    "Momentum.TrcText.C88_rotation",
    "Momentum.TrcText.C88_z_up",
    "Momentum.TrcText.C88_up_counterexample",
    "Momentum.TrcText.C88_trc_partial",
    "Momentum.TrcText.C88_units_counterexample",
    "Momentum.TrcText.C88_millimetres_wrong",
    "Momentum.TrcText.C88_last_line_lost",
    "Momentum.TrcText.C88_never_ends",
    "Momentum.TrcText.C88_bad_header",
    "Momentum.TrcText.C88_wrong_names"
   ],
   "note": "Exact for files in centimetres whose lines all have a line end. The code ignores the unit of the file (C88_units_counterexample, C88_millimetres_wrong), loses a last line without line end, does not end on a final carriage return, and does not turn the up axis to y (C88_up_counterexample)."
  },
  {
   "property": "C89",
   "status": "proved",
   "theorems": [
    "Momentum.Polygons.C89_check",
    "Momentum.Polygons.C89_boundary",
    "Momentum.Polygons.C89_count",
    "Momentum.Polygons.C89_triangles",
    "Momentum.Polygons.C89_safe",
    "Momentum.Polygons.C89_texture_safe",
    "Momentum.Polygons.C89_small_rejected",
    "Momentum.Polygons.C89_file",
    "Momentum.Polygons.C89_warning",
    "Momentum.Polygons.C89_missing_texture_counterexample"
   ],
   "note": "All statements for arrays below 2^32 entries and vertex numbers below 2^31. Missing texture indices become -1 (C89_missing_texture_counterexample)."
  },
  {
   "property": "C90",
   "status": "partial",
   "theorems": [
    "Momentum.MarkerSubjects.C90_main_subject",
    "Momentum.MarkerSubjects.C90_single_subject",
    "Momentum.MarkerSubjects.C90_subject_name",
    "Momentum.MarkerSubjects.C90_subject_unique",
    "Momentum.MarkerSubjects.C90_c3d_partial",
    "Momentum.MarkerSubjects.C90_points_exist",
    "Momentum.MarkerSubjects.C90_bad_unit",
    "Momentum.MarkerSubjects.C90_few_labels",
    "Momentum.MarkerSubjects.C90_full_section_lost"
   ],
   "note": "Proved for files whose labels fill one section more than points/255; a file with exactly 255 points in one section is lost (C90_full_section_lost). ezc3d itself, the exceptions of its parser and int overflow of counts are not modelled."
  },
  {
   "property": "C91",
   "status": "partial",
   "theorems": [
    "Momentum.MarkerTracker.C91_columns",
    "Momentum.MarkerTracker.C91_identity",
    "Momentum.MarkerTracker.C91_frame",
    "Momentum.MarkerTracker.C91_independent",
    "Momentum.MarkerTracker.C91_causal",
    "Momentum.MarkerTracker.C91_zero_stride_never_ends",
    "Momentum.MarkerTracker.C91_refused",
    "Momentum.MarkerTracker.C91_sequence",
    "Momentum.MarkerTracker.C91_sequence_parameters",
    "Momentum.MarkerTracker.C91_sequence_zero_stride",
    "Momentum.MarkerTracker.C91_calibration_frames",
    "Momentum.MarkerTracker.C91_calibration_twice_counterexample",
    "Momentum.MarkerTracker.C91_window_partial",
    "Momentum.MarkerTracker.C91_window_wraps"
   ],
   "note": "C91_window_partial needs that the first frame and the number of frames do not wrap around, C91_window_wraps shows the wrap; strides of zero never end. The solvers are parameters; the calibration itself is not modelled"
  },
  {
   "property": "C92",
   "status": "partial",
   "theorems": [
    "Momentum.Gltf.C92_read_back",
    "Momentum.Gltf.C92_stored",
    "Momentum.Gltf.C92_aligned",
    "Momentum.Gltf.C92_unaligned_counterexample",
    "Momentum.Gltf.C92_read_partial",
    "Momentum.Gltf.C92_starts_partial",
    "Momentum.Gltf.C92_reads_past_end_counterexample",
    "Momentum.Gltf.C92_wrong_type",
    "Momentum.Gltf.C92_markers",
    "Momentum.Gltf.C92_frames_lost",
    "Momentum.Gltf.C92_times_counterexample",
    "Momentum.Gltf.C92_other_channels"
   ],
   "note": "Round trips are proved for every history and every sequence; accessors of other files are only safe if their elements lie inside the view, and trailing frames without visible markers are lost (counterexamples)."
  },
  {
   "property": "C93",
   "status": "partial",
   "theorems": [
    "Momentum.Gltf.C93_hierarchy",
    "Momentum.Gltf.C93_tree",
    "Momentum.Gltf.C93_cycle_counterexample",
    "Momentum.Gltf.C93_index",
    "Momentum.Gltf.C93_skeleton",
    "Momentum.Gltf.C93_order_counterexample",
    "Momentum.Gltf.C93_roots_counterexample"
   ],
   "note": "Well-formedness, completeness and parents are proved for all files and all skeletons with parents first; cycles do not end, an index equal to the number of nodes is undefined behaviour, joint order and further roots are not kept (counterexamples)."
  },
  {
   "property": "C94",
   "status": "partial",
   "theorems": [
    "Momentum.Fbx.C94_history_partial",
    "Momentum.Fbx.C94_reads",
    "Momentum.Fbx.C94_error",
    "Momentum.Fbx.C94_error_counterexample",
    "Momentum.Fbx.C94_outside_counterexample",
    "Momentum.Fbx.C94_seek_end"
   ],
   "note": "Proved for all histories whose positions stay inside the buffer, and for all sequences of reads; positions outside lead to undefined behaviour (counterexample for every buffer)."
  },
  {
   "property": "C95",
   "status": "partial",
   "theorems": [
    "Momentum.Gltf.C95_parents",
    "Momentum.Gltf.C95_skin",
    "Momentum.Gltf.C95_gather_partial",
    "Momentum.Gltf.C95_loaded_partial",
    "Momentum.Gltf.C95_shared_counterexample",
    "Momentum.Gltf.C95_ends",
    "Momentum.Gltf.C95_cycle_counterexample"
   ],
   "note": "Proved for strict trees where no two skins have the same closest node above their joints; files in which skins share it are never loaded (counterexample for all such files), and cycles never end."
  },
  {
   "property": "C96",
   "status": "partial",
   "theorems": [
    "Momentum.PoseShape.C96_value",
    "Momentum.PoseShape.C96_fits",
    "Momentum.PoseShape.C96_turned",
    "Momentum.PoseShape.C96_base",
    "Momentum.PoseShape.C96_sign_counterexample",
    "Momentum.PoseShape.C96_full_turn",
    "Momentum.PoseShape.C96_empty_counterexample"
   ],
   "note": "Value, invariance under turning the character, and necessity of a fitting shape are proved; that equal rotations give equal shapes is false, by counterexample for all shapes."
  },
  {
   "property": "C97",
   "status": "partial",
   "theorems": [
    "Momentum.C97_round_partial",
    "Momentum.C97_alloc_partial",
    "Momentum.C97_wrap_counterexample",
    "Momentum.C97_zero"
   ],
   "note": "Proved unless the request is less than one alignment below 2^64 bytes, where the size wraps to zero (counterexample for all such requests)."
  },
  {
   "property": "C98",
   "status": "partial",
   "theorems": [
    "Momentum.TensorCheck.C98_together",
    "Momentum.TensorCheck.C98_unchanged",
    "Momentum.TensorCheck.C98_accepted_partial",
    "Momentum.TensorCheck.C98_order_counterexample"
   ],
   "note": "Soundness over all histories and completeness when the first tensor has a batch or the batch has size one; otherwise the order of arguments matters (counterexample for all tensors)."
  },
  {
   "property": "C99",
   "status": "partial",
   "theorems": [
    "Momentum.TensorClosest.C99_closest_partial",
    "Momentum.TensorClosest.C99_dimension_counterexample",
    "Momentum.TensorClosest.C99_negative"
   ],
   "note": "Proved for two and three dimensions in every order of the steps, given a search as proved in C45; false for all other dimensions (counterexample)."
  },
  {
   "property": "C100",
   "status": "partial",
   "theorems": [
    "Momentum.PoseShapeIo.C100_load",
    "Momentum.PoseShapeIo.C100_truncated_counterexample",
    "Momentum.PoseShapeIo.C100_fits",
    "Momentum.PoseShapeIo.C100_short_counterexample",
    "Momentum.PoseShapeIo.C100_missing",
    "Momentum.PoseShapeIo.C100_refused"
   ],
   "note": "files that end too early are not refused, see the counterexamples; the rest is proved"
  },
  {
   "property": "C101",
   "status": "partial",
   "theorems": [
    "Momentum.JointParamsIo.C101_load",
    "Momentum.JointParamsIo.C101_shape",
    "Momentum.JointParamsIo.C101_truncated_counterexample",
    "Momentum.JointParamsIo.C101_short_counterexample"
   ],
   "note": "files that do not exist or end too early are not refused, see the counterexamples; the rest is proved"
  },
  {
   "property": "C102",
   "status": "proved",
   "theorems": [
    "Momentum.SimdLoss.C102_lanes",
    "Momentum.SimdLoss.C102_independent",
    "Momentum.SimdLoss.C102_deriv"
   ],
   "note": "exact arithmetic; rounding is not modelled"
  }
 ]
}