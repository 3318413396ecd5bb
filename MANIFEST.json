{
 "claims": [
  {
   "property": "C01",
   "status": "proved",
   "theorems": [
    "Ergodic.C01_rowMajor2Grid_grid2RowMajor",
    "Ergodic.C01_grid2RowMajor_rowMajor2Grid",
    "Ergodic.C01_no_columns",
    "Ergodic.C01_grid2RowMajor_injective"
   ],
   "note": ""
  },
  {
   "property": "C02",
   "status": "partial",
   "theorems": [
    "Ergodic.C02_gridBounds_exact_partial",
    "Ergodic.C02_refuted_empty",
    "Ergodic.C02_refuted",
    "Ergodic.C02_iff"
   ],
   "note": "Exact on maps with at least one row and column. False for an empty axis: size-1 wraps and every index is in bounds (C02_refuted). C02_iff: exact precisely for maps with at least one row and column."
  },
  {
   "property": "C03",
   "status": "partial",
   "theorems": [
    "Ergodic.C03_gridBoundsIdx_exact_partial",
    "Ergodic.C03_size",
    "Ergodic.C03_refuted_empty",
    "Ergodic.C03_refuted_wrap",
    "Ergodic.C03_refuted",
    "Ergodic.C03_iff"
   ],
   "note": "Exact when 0 < xsize*ysize < 2^32. False on the empty map and when the product wraps (C03_refuted_empty, C03_refuted_wrap). C03_iff: exact precisely when the number of cells is positive and below 2^32 (or a multiple of 2^32, which no vector can hold)."
  },
  {
   "property": "C04",
   "status": "partial",
   "theorems": [
    "Ergodic.C04_ofLimits_checked_partial",
    "Ergodic.C04_ofMsg_checked_partial",
    "Ergodic.C04_refuted",
    "Ergodic.C04_iff"
   ],
   "note": "Exact for maps of fewer than 2^32 cells. A 65536x65536 message without data is accepted because the product wraps (C04_refuted). C04_iff: for given dimensions, accepted data always fills the map precisely when width*height < 2^32."
  },
  {
   "property": "C05",
   "status": "proved",
   "theorems": [
    "Ergodic.C05_last_message",
    "Ergodic.C05_history_irrelevant"
   ],
   "note": ""
  },
  {
   "property": "C06",
   "status": "partial",
   "theorems": [
    "Ergodic.C06_wellFormed_partial",
    "Ergodic.C06_default",
    "Ergodic.C06_refuted",
    "Ergodic.C06_iff"
   ],
   "note": "Holds for histories of well-formed messages; update() does not check the message (C06_refuted). C06_iff: every reachable map is well formed precisely when every message is."
  },
  {
   "property": "C07",
   "status": "proved",
   "theorems": [
    "Ergodic.C07_world2Grid_grid2World",
    "Ergodic.C07_world2RowMajor_grid2World"
   ],
   "note": ""
  },
  {
   "property": "C08",
   "status": "proved",
   "theorems": [
    "Ergodic.C08_rect_covered",
    "Ergodic.C08_half_open_exact",
    "Ergodic.C08_getCellXY"
   ],
   "note": ""
  },
  {
   "property": "C09",
   "status": "partial",
   "theorems": [
    "Ergodic.C09_refuted",
    "Ergodic.C09_accepted_region_partial",
    "Ergodic.C09_below_is_undefined"
   ],
   "note": "Exact accepted region proved (exact arithmetic): one extra cell past the upper edges is folded in, so the full statement is false (C09_refuted); below the lower edges the cast is undefined behaviour."
  },
  {
   "property": "C10",
   "status": "proved",
   "theorems": [
    "Ergodic.C10_getCellIdx",
    "Ergodic.C10_getCellIdx_safe",
    "Ergodic.C10_value_range"
   ],
   "note": ""
  },
  {
   "property": "C11",
   "status": "partial",
   "theorems": [
    "Ergodic.C11_getCell_exists",
    "Ergodic.C11_row_past_end_partial",
    "Ergodic.C11_column_aliases",
    "Ergodic.C11_refuted",
    "Ergodic.C11_iff",
    "Ergodic.C11_never"
   ],
   "note": "Existing cells are read exactly; rows past the end throw; columns past the end alias the next row (C11_refuted). C11_iff: throws precisely when the wrapped linear index is past the end; C11_never: every nonempty map has out-of-range arguments that read its first cell."
  },
  {
   "property": "C12",
   "status": "proved",
   "theorems": [
    "Ergodic.C12_axis_roundtrip",
    "Ergodic.C12_ofMsg_ofLimits"
   ],
   "note": ""
  },
  {
   "property": "C13",
   "status": "proved",
   "theorems": [
    "Ergodic.C13_range",
    "Ergodic.C13_same_direction",
    "Ergodic.C13_unique",
    "Ergodic.C13_fixed_point",
    "Ergodic.C13_idempotent",
    "Ergodic.C13_periodic"
   ],
   "note": ""
  },
  {
   "property": "C14",
   "status": "proved",
   "theorems": [
    "Ergodic.C14_range",
    "Ergodic.C14_same_direction",
    "Ergodic.C14_unique"
   ],
   "note": ""
  },
  {
   "property": "C15",
   "status": "proved",
   "theorems": [
    "Ergodic.C15_pure_yaw",
    "Ergodic.C15_scale_invariant",
    "Ergodic.C15_heading_of_forward_axis"
   ],
   "note": ""
  },
  {
   "property": "C16",
   "status": "proved",
   "theorems": [
    "Ergodic.C16_symmetric",
    "Ergodic.C16_is_binary_entropy",
    "Ergodic.C16_bounds",
    "Ergodic.C16_unknown_highest",
    "Ergodic.C16_percent_order"
   ],
   "note": ""
  },
  {
   "property": "C17",
   "status": "partial",
   "theorems": [
    "Ergodic.C17_rotate_then_translate",
    "Ergodic.C17_polar",
    "Ergodic.C17_transform_polar",
    "Ergodic.C17_overloads",
    "Ergodic.C17_isometry",
    "Ergodic.C17_distance_euclidean",
    "Ergodic.C17_compose",
    "Ergodic.C17_inverse_arguments_partial",
    "Ergodic.C17_refuted",
    "Ergodic.C17_iff"
   ],
   "note": "Rotation-then-translation, isometry and composition proved (exact arithmetic). transform2dInv passes its arguments in the wrong order, so it is not the inverse (C17_refuted); the three numbers it computes are the right ones. C17_iff: the exact translations for which transform2dInv does invert."
  },
  {
   "property": "C18",
   "status": "proved",
   "theorems": [
    "Ergodic.C18_exact_motion",
    "Ergodic.C18_exact_translation",
    "Ergodic.C18_semigroup",
    "Ergodic.C18_derivative",
    "Ergodic.C18_limit_zero",
    "Ergodic.C18_zero_step_is_nan"
   ],
   "note": "Exact arithmetic; the step dt = 0 with rotation is 0/0 = NaN (C18_zero_step_is_nan)."
  },
  {
   "property": "C19",
   "status": "proved",
   "theorems": [
    "Ergodic.C19_straight_line",
    "Ergodic.C19_error"
   ],
   "note": ""
  },
  {
   "property": "C20",
   "status": "proved",
   "theorems": [
    "Ergodic.C20_accepts_iff",
    "Ergodic.C20_rejects_iff",
    "Ergodic.C20_step_count",
    "Ergodic.C20_poses_are_exact"
   ],
   "note": ""
  },
  {
   "property": "C21",
   "status": "proved",
   "theorems": [
    "Ergodic.C21_path_is_validated_path",
    "Ergodic.C21_same_length"
   ],
   "note": ""
  },
  {
   "property": "C22",
   "status": "proved",
   "theorems": [
    "Ergodic.C22_first_states_kept",
    "Ergodic.C22_capacity",
    "Ergodic.C22_full_is_final",
    "Ergodic.C22_append_keeps"
   ],
   "note": ""
  },
  {
   "property": "C23",
   "status": "proved",
   "theorems": [
    "Ergodic.C23_sample",
    "Ergodic.C23_empty_trajectory_throws"
   ],
   "note": ""
  },
  {
   "property": "C24",
   "status": "partial",
   "theorems": [
    "Ergodic.C24_guard_partial",
    "Ergodic.C24_refuted",
    "Ergodic.C24_blind_above",
    "Ergodic.C24_nan_accepted"
   ],
   "note": "Exact guard proved: the code checks [0,100], the documentation says [0,1]; thresholds in (1,100] are accepted (C24_refuted) and above 1.27 nothing is an obstacle (C24_blind_above)."
  },
  {
   "property": "C25",
   "status": "proved",
   "theorems": [
    "Ergodic.C25_sound",
    "Ergodic.C25_sound_metric",
    "Ergodic.C25_padding"
   ],
   "note": ""
  },
  {
   "property": "C26",
   "status": "partial",
   "theorems": [
    "Ergodic.C26_exact_partial",
    "Ergodic.C26_edge_pair_partial",
    "Ergodic.C26_axis_partial",
    "Ergodic.C26_refuted_gap",
    "Ergodic.C26_refuted_interior",
    "Ergodic.C26_refuted",
    "Ergodic.C26_interior_unseen"
   ],
   "note": "The exact set of reported cells is proved for every map (C26_exact_partial): cells on a digital circle of radius r_bnd..r_max. False in general: gaps between circles (C26_refuted_gap) and everything inside the boundary radius (C26_refuted_interior) are missed. Two edge-adjacent occupied cells in the annulus are always reported (C26_edge_pair_partial), as are cells on the axes (C26_axis_partial)."
  },
  {
   "property": "C27",
   "status": "proved",
   "theorems": [
    "Ergodic.C27_sweep_is_ring",
    "Ergodic.C27_terminates",
    "Ergodic.C27_half_cell",
    "Ergodic.C27_symmetric",
    "Ergodic.C27_axis",
    "Ergodic.C27_one_cell_per_row",
    "Ergodic.C27_no_overflow"
   ],
   "note": ""
  },
  {
   "property": "C28",
   "status": "proved",
   "theorems": [
    "Ergodic.C28_agree",
    "Ergodic.C28_displacement",
    "Ergodic.C28_distance_clear"
   ],
   "note": ""
  },
  {
   "property": "C29",
   "status": "proved",
   "theorems": [
    "Ergodic.C29_monotone",
    "Ergodic.C29_raise"
   ],
   "note": ""
  },
  {
   "property": "C30",
   "status": "proved",
   "theorems": [
    "Ergodic.C30_no_failure",
    "Ergodic.C30_no_failure_not_below",
    "Ergodic.C30_no_failure_any",
    "Ergodic.C30_outside_undefined"
   ],
   "note": ""
  },
  {
   "property": "C31",
   "status": "proved",
   "theorems": [
    "Ergodic.C31_unknown_free",
    "Ergodic.C31_nothing_reported",
    "Ergodic.C31_unknown_map_clear"
   ],
   "note": ""
  },
  {
   "property": "C32",
   "status": "proved",
   "theorems": [
    "Ergodic.C32_ray_cells"
   ],
   "note": ""
  },
  {
   "property": "C33",
   "status": "proved",
   "theorems": [
    "Ergodic.C33_half_cell",
    "Ergodic.C33_connected_shallow",
    "Ergodic.C33_connected_steep",
    "Ergodic.C33_reversible"
   ],
   "note": ""
  },
  {
   "property": "C34",
   "status": "proved",
   "theorems": [
    "Ergodic.C34_occupied",
    "Ergodic.C34_free"
   ],
   "note": "Exact arithmetic with special values; rounding of the double computation may lower an exact integer posterior by one."
  },
  {
   "property": "C35",
   "status": "partial",
   "theorems": [
    "Ergodic.C35_direction",
    "Ergodic.C35_reversible_partial",
    "Ergodic.C35_refuted_stuck",
    "Ergodic.C35_refuted_seven",
    "Ergodic.C35_refuted",
    "Ergodic.C35_iff"
   ],
   "note": "Direction proved for all percentages (exact arithmetic with special values). Reversal proved for 1..99; false for 0 and 100, which are absorbing (C35_refuted, C35_refuted_stuck), and 0 is reached from 50 by seven free observations (C35_refuted_seven). C35_iff: recovery is possible precisely from every percentage but the absorbing one."
  },
  {
   "property": "C36",
   "status": "partial",
   "theorems": [
    "Ergodic.C36_touched",
    "Ergodic.C36_iff",
    "Ergodic.C36_frame",
    "Ergodic.C36_outside",
    "Ergodic.C36_evidence",
    "Ergodic.C36_refuted_below",
    "Ergodic.C36_refuted"
   ],
   "note": "Frame property for every arithmetic and the complete per-cell effect of a scan (exact arithmetic) proved; false is returned exactly when the robot's cell index is outside. The clause fails over the plane: left of or below the map the conversion is undefined behaviour (C36_refuted). C36_iff: exact region of the plane in which outside is reported; C36_touched: complete effect when only the cells touched by beams hold percentages, the others being anything."
  },
  {
   "property": "C37",
   "status": "proved",
   "theorems": [
    "Ergodic.C37_percentages"
   ],
   "note": "Exact arithmetic with special values."
  },
  {
   "property": "C38",
   "status": "partial",
   "theorems": [
    "Ergodic.C38_iff",
    "Ergodic.C38_known_partial",
    "Ergodic.C38_refuted_unknown",
    "Ergodic.C38_refuted"
   ],
   "note": "Proved for maps of percentages. False with unknown cells: the update is undefined behaviour (C38_refuted). C38_iff: an update completes precisely when the indices convert and the touched cells hold percentages, and is undefined behaviour in all other cases."
  },
  {
   "property": "C39",
   "status": "proved",
   "theorems": [
    "Ergodic.C39_column",
    "Ergodic.C39_enumeration"
   ],
   "note": ""
  },
  {
   "property": "C40",
   "status": "proved",
   "theorems": [
    "Ergodic.C40_values",
    "Ergodic.C40_bounded",
    "Ergodic.C40_first",
    "Ergodic.C40_gradient"
   ],
   "note": "Exact arithmetic."
  },
  {
   "property": "C41",
   "status": "proved",
   "theorems": [
    "Ergodic.C41_time_average",
    "Ergodic.C41_bounded",
    "Ergodic.C41_first",
    "Ergodic.C41_permutation",
    "Ergodic.C41_concatenation",
    "Ergodic.C41_empty_is_nan"
   ],
   "note": "Exact arithmetic; an empty trajectory gives NaN (C41_empty_is_nan)."
  },
  {
   "property": "C42",
   "status": "proved",
   "theorems": [
    "Ergodic.C42_entry",
    "Ergodic.C42_linear",
    "Ergodic.C42_normalised",
    "Ergodic.C42_too_few"
   ],
   "note": ""
  },
  {
   "property": "C43",
   "status": "proved",
   "theorems": [
    "Ergodic.C43_constructor",
    "Ergodic.C43_value",
    "Ergodic.C43_range",
    "Ergodic.C43_peak",
    "Ergodic.C43_symmetric",
    "Ergodic.C43_decreasing",
    "Ergodic.C43_translation"
   ],
   "note": ""
  },
  {
   "property": "C44",
   "status": "partial",
   "theorems": [
    "Ergodic.C44_iff",
    "Ergodic.C44_normalised_partial",
    "Ergodic.C44_proportional",
    "Ergodic.C44_zero_mass",
    "Ergodic.C44_refuted_empty",
    "Ergodic.C44_refuted"
   ],
   "note": "Proved for targets with at least one Gaussian (exact arithmetic). False for the empty target: every value is NaN (C44_refuted_empty, C44_refuted). C44_zero_mass gives the same for targets whose values all underflow to zero. C44_iff: sums to one precisely for nonempty targets."
  },
  {
   "property": "C45",
   "status": "proved",
   "theorems": [
    "Ergodic.C45_evaluate_sum",
    "Ergodic.C45_add",
    "Ergodic.C45_delete",
    "Ergodic.C45_delete_out_of_range",
    "Ergodic.C45_add_delete",
    "Ergodic.C45_order",
    "Ergodic.C45_add_value",
    "Ergodic.C45_delete_value"
   ],
   "note": "delete with an index outside the list is undefined behaviour (C45_delete_out_of_range)."
  },
  {
   "property": "C46",
   "status": "partial",
   "theorems": [
    "Ergodic.C46_iff",
    "Ergodic.C46_markers",
    "Ergodic.C46_ids",
    "Ergodic.C46_extent_partial",
    "Ergodic.C46_refuted_swapped",
    "Ergodic.C46_refuted"
   ],
   "note": "Count, ids, centre proved for every arithmetic. Extents proved when |sigma_x| <= |sigma_y|; exchanged otherwise (C46_refuted_swapped, C46_refuted), because eig_sym returns ascending eigenvalues. Extents are proportional to the variances. C46_iff: extents are right precisely when |sigma_x| <= |sigma_y|."
  },
  {
   "property": "C47",
   "status": "proved",
   "theorems": [
    "Ergodic.C47_cart",
    "Ergodic.C47_simpleCart",
    "Ergodic.C47_mecanum",
    "Ergodic.C47_omni"
   ],
   "note": "Exact arithmetic; stated along curves, so it is the total derivative."
  },
  {
   "property": "C48",
   "status": "proved",
   "theorems": [
    "Ergodic.C48_cart",
    "Ergodic.C48_mecanum",
    "Ergodic.C48_cart_rolling",
    "Ergodic.C48_mecanum_rolling",
    "Ergodic.C48_omni_flow"
   ],
   "note": ""
  },
  {
   "property": "C49",
   "status": "proved",
   "theorems": [
    "Ergodic.C49_cart_lateral",
    "Ergodic.C49_simpleCart_lateral",
    "Ergodic.C49_guard"
   ],
   "note": ""
  },
  {
   "property": "C50",
   "status": "proved",
   "theorems": [
    "Ergodic.C50_affine",
    "Ergodic.C50_constant",
    "Ergodic.C50_heading",
    "Ergodic.C50_error",
    "Ergodic.C50_cart"
   ],
   "note": "Exact arithmetic."
  },
  {
   "property": "C51",
   "status": "proved",
   "theorems": [
    "Ergodic.C51_structure",
    "Ergodic.C51_count",
    "Ergodic.C51_headings",
    "Ergodic.C51_causal",
    "Ergodic.C51_total",
    "Ergodic.C51_global_error"
   ],
   "note": ""
  },
  {
   "property": "C52",
   "status": "proved",
   "theorems": [
    "Ergodic.C52_structure",
    "Ergodic.C52_anticausal",
    "Ergodic.C52_taylor",
    "Ergodic.C52_linear",
    "Ergodic.C52_zero",
    "Ergodic.C52_total"
   ],
   "note": ""
  },
  {
   "property": "C53",
   "status": "partial",
   "theorems": [
    "Ergodic.C53_constant_partial",
    "Ergodic.C53_backward_partial",
    "Ergodic.C53_rest",
    "Ergodic.C53_refuted",
    "Ergodic.C53_never_accepts",
    "Ergodic.C53_iff"
   ],
   "note": "False: the weight 2197/4101 (should be 2197/4104) makes the fourth-order weights sum to 1 + 2197/5610168. The exact factor and the spurious error are proved for all inputs (C53_constant_partial, C53_backward_partial); with a tolerance below it no step is ever accepted (C53_never_accepts). C53_iff: a constant derivative is integrated exactly precisely when it is zero."
  },
  {
   "property": "C54",
   "status": "partial",
   "theorems": [
    "Ergodic.C54_terminates",
    "Ergodic.C54_terminates_back",
    "Ergodic.C54_bookkeeping_partial",
    "Ergodic.C54_refuted_storage",
    "Ergodic.C54_refuted_horizon",
    "Ergodic.C54_refuted",
    "Ergodic.C54_bookkeeping_back_partial",
    "Ergodic.C54_refuted_storage_back"
   ],
   "note": "Termination proved for every arithmetic, both directions. Times and storage proved for the forward pass when the horizon is a multiple of hmin and at least (hmin+hmax)/2. False otherwise: one column too few is allocated (C54_refuted_storage) and the first step may pass the horizon (C54_refuted_horizon)."
  },
  {
   "property": "C55",
   "status": "partial",
   "theorems": [
    "Ergodic.C55_grid",
    "Ergodic.C55_within_partial",
    "Ergodic.C55_only_admissible_partial",
    "Ergodic.C55_result_partial",
    "Ergodic.C55_inverted",
    "Ergodic.C55_refuted",
    "Ergodic.C55_iff",
    "Ergodic.C55_limits_iff"
   ],
   "note": "Holds exactly when on every axis the measured velocity can be brought back within the limits in one acceleration step: all samples respect both limits if and only if the window is not inside out (C55_iff; velocity limits alone C55_limits_iff). In that case also C55_within_partial, C55_only_admissible_partial, C55_result_partial. False otherwise: the window turns inside out and the samples exceed the limit (C55_inverted, C55_refuted)."
  },
  {
   "property": "C56",
   "status": "proved",
   "theorems": [
    "Ergodic.C56_optimal",
    "Ergodic.C56_sample_count",
    "Ergodic.C56_nearest",
    "Ergodic.C56_tracks_best"
   ],
   "note": ""
  },
  {
   "property": "C57",
   "status": "partial",
   "theorems": [
    "Ergodic.C57_all_collide",
    "Ergodic.C57_false_iff_partial",
    "Ergodic.C57_traj_partial",
    "Ergodic.C57_nan",
    "Ergodic.C57_refuted",
    "Ergodic.C57_total"
   ],
   "note": "Failure iff all samples collide when every squared error (resp. tracking cost) is at most 2^1000; all-collide implies failure with the zero twist in any arithmetic. False with special values: a NaN reference always fails (C57_nan, C57_refuted)."
  },
  {
   "property": "C58",
   "status": "partial",
   "theorems": [
    "Ergodic.C58_in_range_iff",
    "Ergodic.C58_in_range_partial",
    "Ergodic.C58_whole_steps_partial",
    "Ergodic.C58_total",
    "Ergodic.C58_no_value",
    "Ergodic.C58_refuted"
   ],
   "note": "Exact condition proved (C58_in_range_iff); in range when the window horizon is at most half a column longer than the reference. False in general: the nodes' check compares horizons, not column counts (C58_refuted)."
  },
  {
   "property": "C59",
   "status": "partial",
   "theorems": [
    "Ergodic.C59_not_outside",
    "Ergodic.C59_inverted",
    "Ergodic.C59_inverted_ub",
    "Ergodic.C59_limits_partial",
    "Ergodic.C59_or_nan_partial",
    "Ergodic.C59_nan",
    "Ergodic.C59_zero_mass",
    "Ergodic.C59_refuted"
   ],
   "note": "Exact arithmetic: every stored column and the returned twist are within the limits after every history (C59_limits_partial). With special values each entry is within the limits or NaN (C59_or_nan_partial); in any arithmetic no entry compares outside the limits (C59_not_outside). False with special values: a target without mass gives NaN commands (C59_refuted)."
  },
  {
   "property": "C60",
   "status": "proved",
   "theorems": [
    "Ergodic.C60_receding",
    "Ergodic.C60_time_step",
    "Ergodic.C60_replay",
    "Ergodic.C60_total",
    "Ergodic.C60_total_cart"
   ],
   "note": ""
  },
  {
   "property": "C61",
   "status": "partial",
   "theorems": [
    "Ergodic.C61_new_size_partial",
    "Ergodic.C61_same_size_keeps",
    "Ergodic.C61_fixed_map_partial",
    "Ergodic.C61_memory",
    "Ergodic.C61_refuted",
    "Ergodic.C61_refuted_setTarget",
    "Ergodic.C61_node_partial"
   ],
   "note": "The coefficients are right after a map of a new size (C61_new_size_partial), while the map does not move or change size and setTarget is not called (C61_fixed_map_partial), and in every run of either node on maps of one rectangle (C61_node_partial). False otherwise: the cache looks at the map size only, so a moved map (C61_refuted) or a new target (C61_refuted_setTarget) leaves old coefficients in use."
  },
  {
   "property": "C62",
   "status": "proved",
   "theorems": [
    "Ergodic.C62_grid",
    "Ergodic.C62_covers",
    "Ergodic.C62_too_many"
   ],
   "note": ""
  },
  {
   "property": "C63",
   "status": "proved",
   "theorems": [
    "Ergodic.C63_gradient",
    "Ergodic.C63_signs"
   ],
   "note": "Exact arithmetic."
  },
  {
   "property": "C64",
   "status": "proved",
   "theorems": [
    "Ergodic.C64_minimises",
    "Ergodic.C64_total",
    "Ergodic.C64_coupled_weight",
    "Ergodic.C64_node_omni",
    "Ergodic.C64_node_cart",
    "Ergodic.C64_signal"
   ],
   "note": "Exact arithmetic; for a weight with off-diagonal entries the clamped update need not be the minimiser (C64_coupled_weight); C64_node_omni and C64_node_cart carry the result to the weights read by the nodes."
  },
  {
   "property": "C65",
   "status": "proved",
   "theorems": [
    "Ergodic.C65_columns",
    "Ergodic.C65_independent"
   ],
   "note": ""
  },
  {
   "property": "C66",
   "status": "partial",
   "theorems": [
    "Ergodic.C66_throws_iff",
    "Ergodic.C66_one_step_partial",
    "Ergodic.C66_zero_accepted",
    "Ergodic.C66_zero_unusable",
    "Ergodic.C66_zero_throws",
    "Ergodic.C66_refuted"
   ],
   "note": "Throws exactly when floor(|horizon/dt|) is 1 (C66_throws_iff). False for 0, which is accepted (C66_zero_accepted, C66_refuted) and then unusable (C66_zero_unusable; on a map that can be gridded control throws, C66_zero_throws)."
  },
  {
   "property": "C67",
   "status": "proved",
   "theorems": [
    "Ergodic.C67_one_per_iteration",
    "Ergodic.C67_count",
    "Ergodic.C67_silent"
   ],
   "note": ""
  },
  {
   "property": "C68",
   "status": "proved",
   "theorems": [
    "Ergodic.C68_safe"
   ],
   "note": "For every number type with a strict order (StrictLt: irreflexive, transitive, and the largest number is close to itself)."
  },
  {
   "property": "C69",
   "status": "partial",
   "theorems": [
    "Ergodic.C69_at_most_partial",
    "Ergodic.C69_zero_steps",
    "Ergodic.C69_refuted"
   ],
   "note": "Proved when the window horizon has at least one step (C69_at_most_partial): between two replans at most dwa_steps - 1 twists are published. False for dwa_steps = 0 (C69_refuted): the counter misses zero and the loop may publish for 2^32 - 1 iterations (C69_zero_steps)."
  },
  {
   "property": "C70",
   "status": "partial",
   "theorems": [
    "Ergodic.C70_omni_partial",
    "Ergodic.C70_cart_partial",
    "Ergodic.C70_refuted_cart",
    "Ergodic.C70_refuted_omni",
    "Ergodic.C70_refuted"
   ],
   "note": "Exact arithmetic. Proved when every measured velocity can be brought back within the limits in one acceleration interval (C70_omni_partial, C70_cart_partial; for the cart the lateral velocity is zero or a measured positive one). False otherwise (C70_refuted_omni, C70_refuted_cart): the lower corner of the window is published even when it is beyond the upper limit."
  },
  {
   "property": "C71",
   "status": "partial",
   "theorems": [
    "Ergodic.C71_all_stored",
    "Ergodic.C71_first_map_partial",
    "Ergodic.C71_undisturbed_partial",
    "Ergodic.C71_cells_partial",
    "Ergodic.C71_same_geometry_partial",
    "Ergodic.C71_refuted_missed",
    "Ergodic.C71_refuted",
    "Ergodic.C71_refuted_throws"
   ],
   "note": "Sequentially consistent interleavings of the member assignments of GridMap::update with the reads of a check. Proved: once all assignments are stored the check is the one on the new map (C71_all_stored); the first map is complete when the loop sees map_received (C71_first_map_partial); a check not overlapping an update sees one map (C71_undisturbed_partial); if only the data changes each cell read is the old or the new one (C71_cells_partial, C71_same_geometry_partial). False in general (C71_refuted): an obstacle that both maps contain is missed (C71_refuted_missed), or the check throws although neither map collides (C71_refuted_throws). Weak-memory and data-race undefined behaviour are not modelled."
  },
  {
   "property": "C72",
   "status": "proved",
   "theorems": [
    "Ergodic.C72_silent",
    "Ergodic.C72_running"
   ],
   "note": ""
  },
  {
   "property": "C73",
   "status": "proved",
   "theorems": [
    "Ergodic.C73_remembered"
   ],
   "note": ""
  },
  {
   "property": "C74",
   "status": "proved",
   "theorems": [
    "Ergodic.C74_weights",
    "Ergodic.C74_range",
    "Ergodic.C74_decreasing"
   ],
   "note": ""
  },
  {
   "property": "C75",
   "status": "proved",
   "theorems": [
    "Ergodic.C75_gradient",
    "Ergodic.C75_applies"
   ],
   "note": "Exact arithmetic."
  },
  {
   "property": "C76",
   "status": "proved",
   "theorems": [
    "Ergodic.C76_flow",
    "Ergodic.C76_integrateTwist",
    "Ergodic.C76_poseAfter",
    "Ergodic.C76_validation",
    "Ergodic.C76_rk4_omni",
    "Ergodic.C76_rk4_cart",
    "Ergodic.C76_rollout",
    "Ergodic.C76_plan"
   ],
   "note": "Exact arithmetic."
  },
  {
   "property": "C77",
   "status": "partial",
   "theorems": [
    "Ergodic.C77_validate",
    "Ergodic.C77_controlTwist",
    "Ergodic.C77_controlTraj",
    "Ergodic.C77_replan",
    "Ergodic.C77_avoid",
    "Ergodic.C77_trace",
    "Ergodic.C77_omni_partial",
    "Ergodic.C77_cart_partial",
    "Ergodic.C77_refuted"
   ],
   "note": "Exact arithmetic. Proved for every history in which, at every iteration, the robot's distance to the lower edges of the map is at least its fastest speed times the longer look-ahead horizon (C77_omni_partial, C77_cart_partial). False for a robot merely inside the map (C77_refuted): the dynamic window simulates driving off the lower edge, where a negative number is converted to unsigned."
  },
  {
   "property": "C78",
   "status": "proved",
   "theorems": [
    "Ergodic.C78_starts_omni",
    "Ergodic.C78_starts_cart",
    "Ergodic.C78_too_few_weights"
   ],
   "note": "Exact arithmetic for the equivalences; the out_of_range result holds in every arithmetic. Contract: Armadillo's inv throws on a singular covariance."
  },
  {
   "property": "C79",
   "status": "partial",
   "theorems": [
    "Ergodic.C79_round_trip_partial",
    "Ergodic.C79_index_partial",
    "Ergodic.C79_refuted"
   ],
   "note": "For every Machine (Base/Rounded.lean: round to nearest, 53 bits, gradual underflow; ieee is one). Proved for maps none of whose cells is further than 2^44 cells from the origin (C79_round_trip_partial, C79_index_partial). False beyond (C79_refuted, for binary64 itself): with cells of side 1 at 2^53 the centre of cell 1 is computed as 2^53+2, in cell 2."
  },
  {
   "property": "C80",
   "status": "proved",
   "theorems": [
    "Ergodic.C80_located",
    "Ergodic.C80_half_cell_beyond",
    "Ergodic.C80_upper_corner",
    "Ergodic.C80_below_is_undefined"
   ],
   "note": "For every Machine."
  },
  {
   "property": "C81",
   "status": "partial",
   "theorems": [
    "Ergodic.C81_steps_partial",
    "Ergodic.C81_steps_bracket",
    "Ergodic.C81_refuted",
    "Ergodic.C81_shipped_steps",
    "Ergodic.C81_radius_partial",
    "Ergodic.C81_radius_refuted",
    "Ergodic.C81_shipped_radii"
   ],
   "note": "For every Machine: the count is n or n-1, never anything else (C81_steps_partial, C81_radius_partial; C81_steps_bracket for arbitrary horizons). False in general for binary64 (C81_refuted: 0.3/0.1 gives 2; C81_radius_refuted: 0.7/0.1 gives 6). The shipped horizons keep their 5, 20 and 50 steps (C81_shipped_steps); the shipped radii on a map with resolution 0.1 received as float32 lose a cell: 6, 8, 9 instead of 7, 9, 10 (C81_shipped_radii)."
  },
  {
   "property": "C82",
   "status": "partial",
   "theorems": [
    "Ergodic.C82_range_PI_partial",
    "Ergodic.C82_range_2PI_partial",
    "Ergodic.C82_heading_2PI",
    "Ergodic.C82_heading_PI",
    "Ergodic.C82_refuted",
    "Ergodic.C82_refuted_2PI"
   ],
   "note": "For every Machine: for |x| <= 3*PI the closed interval [-PI, PI] (C82_range_PI_partial), for |x| <= 4*PI [0, 2PI] (C82_range_2PI_partial), and headings kept by adding bounded increments stay there (C82_heading_PI, C82_heading_2PI). The half-open interval is false for binary64 (C82_refuted, C82_refuted_2PI): the upper end is returned for tiny negative inputs."
  },
  {
   "property": "C83",
   "status": "proved",
   "theorems": [
    "Ergodic.C83_percentages",
    "Ergodic.C83_total"
   ],
   "note": "For every Machine."
  },
  {
   "property": "C84",
   "status": "partial",
   "theorems": [
    "Ergodic.C84_occupied_partial",
    "Ergodic.C84_free_partial",
    "Ergodic.C84_refuted"
   ],
   "note": "For every Machine whose log and exp are right to 40 bits: the stored value is the posterior percentage rounded down, or one less when the posterior is a whole percentage; it never moves in the wrong direction and 0 and 100 keep (C84_occupied_partial, C84_free_partial). The exact value is not guaranteed: an accurate library exists for which 50 becomes 89 instead of 90 (C84_refuted)."
  },
  {
   "property": "C85",
   "status": "partial",
   "theorems": [
    "Ergodic.C85_within_partial",
    "Ergodic.C85_result_partial",
    "Ergodic.C85_refuted"
   ],
   "note": "For every Machine: a sampled twist is finite, never below the lower limits and beyond the upper limits or accelerations by at most samples * bound * 2^-46 (C85_within_partial, C85_result_partial). The upper limit itself is not respected: with the shipped omni limits and a measured vy of 15/16 the last sample is 1 + 2^-52 > 1 (C85_refuted)."
  },
  {
   "property": "C86",
   "status": "partial",
   "theorems": [
    "Ergodic.C86_total",
    "Ergodic.C86_no_value",
    "Ergodic.C86_in_range_partial",
    "Ergodic.C86_decimals_partial",
    "Ergodic.C86_shipped",
    "Ergodic.C86_refuted",
    "Ergodic.C86_lost_column"
   ],
   "note": "For every Machine: when the window's horizon is at most the number of reference columns times their time step, every column exists and the objective returns (C86_in_range_partial, C86_decimals_partial, C86_total; C86_shipped for the shipped parameters). False in general: horizon 0.6 with step 0.1 gives five columns (6 - 2^-50 truncated) and a window of 0.6 with step 0.02 asks for column 5 (C86_refuted), so that the objective returns for no free rollout (C86_lost_column)."
  },
  {
   "property": "C87",
   "status": "partial",
   "theorems": [
    "Ergodic.C87_no_failure",
    "Ergodic.C87_sound",
    "Ergodic.C87_axis_partial",
    "Ergodic.C87_threshold",
    "Ergodic.C87_refuted",
    "Ergodic.C87_no_failure_not_below"
   ],
   "note": "For every Machine: no failure (C87_no_failure), soundness up to 2^-30 of a cell (C87_sound), the threshold is exact for whole percentages (C87_threshold), cells on the axes are reported when they are inside the padding by 2^-30 of a cell (C87_axis_partial). At the limit it is false: 0.7 + 0.2 on cells of 0.1 is eight cells, so that an occupied cell at 0.9 m straight ahead is not reported (C87_refuted)."
  },
  {
   "property": "C88",
   "status": "partial",
   "theorems": [
    "Ergodic.C88_basis",
    "Ergodic.C88_targets",
    "Ergodic.C88_targets_read",
    "Ergodic.C88_launch",
    "Ergodic.C88_counts_partial",
    "Ergodic.C88_no_means",
    "Ergodic.C88_no_sigmas",
    "Ergodic.C88_buffer",
    "Ergodic.C88_refuted"
   ],
   "note": "Basis size (C88_basis), targets (C88_targets, C88_targets_read, C88_no_means, C88_no_sigmas) and start-up (C88_launch) are settled for every value; counts are read as written unless negative (C88_counts_partial). Negative sample counts are not rejected: vx_samples -1 starts with 4294967295 samples (C88_refuted). Contract: XmlRpcValue indexing, growth and conversion as described in Model/Launch.lean; memory exhaustion is not modelled."
  },
  {
   "property": "C89",
   "status": "partial",
   "theorems": [
    "Ergodic.C89_period",
    "Ergodic.C89_closed_loop_partial",
    "Ergodic.C89_between",
    "Ergodic.C89_refuted_lost"
   ],
   "note": "Proved when every iteration finds the transform (C89_closed_loop_partial; per period C89_period, between the checked instants C89_between). False when a lookup fails: the iteration plans from the previous pose and the robot is driven into an obstacle (C89_refuted_lost). Assumes the robot carries out twists exactly and rotates at least 1e-12 rad/s or not at all."
  },
  {
   "property": "C90",
   "status": "partial",
   "theorems": [
    "Ergodic.C90_partial",
    "Ergodic.C90_reversed",
    "Ergodic.C90_mirrored",
    "Ergodic.C90_refuted",
    "Ergodic.C90_range"
   ],
   "note": "Proved up to the thresholds of the code (C90_partial). False beyond them (C90_refuted): without roll the result is the opposite heading (C90_reversed, forward axis down) or its mirror image (C90_mirrored, forward axis up), and not confined to (-pi, pi] (C90_range)."
  },
  {
   "property": "C91",
   "status": "proved",
   "theorems": [
    "Ergodic.C91_rollout",
    "Ergodic.C91_plan"
   ],
   "note": "Proved with an explicit bound (C91_plan; any rollout C91_rollout)."
  },
  {
   "property": "C92",
   "status": "proved",
   "theorems": [
    "Ergodic.C92_step",
    "Ergodic.C92_exact",
    "Ergodic.C92_growth",
    "Ergodic.C92_controls"
   ],
   "note": "Proved: exact steps C92_step and passes C92_exact, growth C92_growth, planned controls C92_controls."
  },
  {
   "property": "C93",
   "status": "partial",
   "theorems": [
    "Ergodic.C93_down_partial",
    "Ergodic.C93_up",
    "Ergodic.C93_exact_partial",
    "Ergodic.C93_shipped",
    "Ergodic.C93_refuted",
    "Ergodic.C93_unreported"
   ],
   "note": "False as stated: every resolution float32 rounds up loses one cell per radius (C93_up), among them the shipped 0.1 (C93_shipped). Partial: exact when rounded down or representable."
  },
  {
   "property": "C94",
   "status": "partial",
   "theorems": [
    "Ergodic.C94_shape",
    "Ergodic.C94_short",
    "Ergodic.C94_quartic_partial",
    "Ergodic.C94_rest",
    "Ergodic.C94_refuted"
   ],
   "note": "False as stated: the fit need not go through the first sample (C94_refuted). Partial: exact for quartic samples (C94_quartic_partial), constant at rest (C94_rest); shape C94_shape; fewer than five samples throw (C94_short)."
  },
  {
   "property": "C95",
   "status": "proved",
   "theorems": [
    "Ergodic.C95_gradient",
    "Ergodic.C95_descent",
    "Ergodic.C95_decrease",
    "Ergodic.C95_fixed_points",
    "Ergodic.C95_costate_exists",
    "Ergodic.C95_full_step"
   ],
   "note": "C95_gradient (adjoint identity), C95_descent (rate), C95_decrease (small steps lower the objective within the limits), C95_fixed_points (first-order condition), C95_costate_exists (the hypotheses can be met), C95_full_step (the undamped step of the code can raise the objective). The step from the sampled to the continuous co-state is C91/C92."
  },
  {
   "property": "C96",
   "status": "proved",
   "theorems": [
    "Ergodic.C96_finite_within",
    "Ergodic.C96_finite_trajectory",
    "Ergodic.C96_omni",
    "Ergodic.C96_cart",
    "Ergodic.C96_out_of_sight",
    "Ergodic.C96_far_target"
   ],
   "note": "C96_finite_within (invariant over all histories), C96_finite_trajectory, C96_omni and C96_cart (the call also returns), C96_out_of_sight (what happens without a visible target), C96_far_target (witness in binary64: a Gaussian of one metre, a hundred metres away)."
  },
  {
   "property": "C97",
   "status": "proved",
   "theorems": [
    "Ergodic.C97_validate",
    "Ergodic.C97_objective",
    "Ergodic.C97_odometry",
    "Ergodic.C97_omni",
    "Ergodic.C97_cart",
    "Ergodic.C97_far_target"
   ],
   "note": "C97_validate, C97_objective (any non-finite component), C97_odometry, C97_omni and C97_cart (one iteration of the node), C97_far_target (a run of each node with finite inputs that ends so)."
  },
  {
   "property": "C98",
   "status": "proved",
   "theorems": [
    "Ergodic.C98_turn",
    "Ergodic.C98_straight",
    "Ergodic.C98_step",
    "Ergodic.C98_reach",
    "Ergodic.C98_trajectory"
   ],
   "note": "C98_turn, C98_straight (the two branches), C98_step, C98_reach (distance after k steps, the rounded form of C76), C98_trajectory (against the exact arc). ieee_trig shows the assumption holds for correctly rounded functions; an example gives 1e-10 m for 20 steps at 1 m/s and 1 rad/s."
  },
  {
   "property": "C99",
   "status": "proved",
   "theorems": [
    "Ergodic.C99_trace",
    "Ergodic.C99_omni",
    "Ergodic.C99_cart"
   ],
   "note": "C99_omni and C99_cart, for whole event histories (C99_trace is the induction). Room is needed (C77_refuted: being inside the map is not enough); the target in sight is needed (C97); a heading is an angle of at most 4. Both theorems are instantiated with binary64 numbers: a node on a map of a hundred square metres."
  },
  {
   "property": "C100",
   "status": "proved",
   "theorems": [
    "Ergodic.C100_uninitialised"
   ],
   "note": "C100_uninitialised: observe gives the same list for every content of phik. They are read (an example), but with a Fourier domain of side zero every gradient is NaN. In the model the constructor writes zeros; this theorem shows that the choice does not matter."
  },
  {
   "property": "C101",
   "status": "proved",
   "theorems": [
    "Ergodic.C101_control",
    "Ergodic.C101_omni",
    "Ergodic.C101_cart",
    "Ergodic.C101_empty_map"
   ],
   "note": "C101_control, C101_omni, C101_cart; C101_empty_map runs both nodes into it with binary64 numbers and a message of 0 x 0 cells."
  },
  {
   "property": "C102",
   "status": "partial",
   "theorems": [
    "Ergodic.C102_compared",
    "Ergodic.C102_ignored_partial",
    "Ergodic.C102_nan",
    "Ergodic.C102_refuted"
   ],
   "note": "Refuted: a NaN reading passes both comparisons and its end point is converted to an index (C102_nan: undefined behaviour wherever it stands in the scan). C102_compared is the positive result in every arithmetic; C102_ignored_partial is the full statement without NaN readings, infinite ones included."
  },
  {
   "property": "C103",
   "status": "partial",
   "theorems": [
    "Ergodic.C103_linear_partial",
    "Ergodic.C103_sequential",
    "Ergodic.C103_one_per_iteration",
    "Ergodic.C103_safe",
    "Ergodic.C103_limits",
    "Ergodic.C103_refuted"
   ],
   "note": "Refuted: a map that arrives between planning and validation makes an iteration no sequential execution has (C103_refuted: planned on the old map, accepted on the new one). C103_linear_partial is the full statement, failures included, when only odometry arrives after the plan; C103_sequential when nothing does. C103_one_per_iteration, C103_safe and C103_limits hold for all callbacks at all places."
  },
  {
   "property": "C104",
   "status": "partial",
   "theorems": [
    "Ergodic.C104_affine_partial",
    "Ergodic.C104_costate_partial",
    "Ergodic.C104_constant_partial",
    "Ergodic.C104_off_line",
    "Ergodic.C104_trajectory",
    "Ergodic.C104_constant_back_partial",
    "Ergodic.C104_costates",
    "Ergodic.C104_refuted"
   ],
   "note": "Refuted by the weight 2197/4101. C104_affine_partial and C104_costate_partial give the step and its error estimate exactly for all affine systems: every stage of the tableau is Fehlberg's, the result has the excess 2197/5610168 of the fourth stage. C104_constant_partial, C104_trajectory, C104_constant_back_partial and C104_costates give the whole integration of a constant derivative: on the line that is steeper by that factor, for every tolerance and step bound; C104_off_line: no sample but the first is on the motion."
  },
  {
   "property": "C105",
   "status": "proved",
   "theorems": [
    "Ergodic.C105_omni",
    "Ergodic.C105_cart",
    "Ergodic.C105_far",
    "Ergodic.C105_closed_loop",
    "Ergodic.C105_exact"
   ],
   "note": "C105_omni and C105_cart from the files as read by Launch.params down to the published twists, for every machine with accurate trigonometry, powers and exponentials; C105_far on binary64 for every map of that kind and every pose; C105_closed_loop and C105_exact over the reals."
  },
  {
   "property": "C106",
   "status": "proved",
   "theorems": [
    "Ergodic.C106_aims",
    "Ergodic.C106_reject",
    "Ergodic.C106_shorter_iff",
    "Ergodic.C106_no_error",
    "Ergodic.C106_nan",
    "Ergodic.C106_exchanged",
    "Ergodic.C106_succeeds",
    "Ergodic.C106_constant",
    "Ergodic.C106_succeeds_back"
   ],
   "note": "C106_aims pins the next length by an independent description with uniqueness; C106_succeeds and C106_succeeds_back by a loop invariant counting the rejections since the last accepted step; shown for the decay of a state, where long steps are rejected. C106_no_error, C106_nan at Dbl; C106_exchanged for every arithmetic."
  },
  {
   "property": "C107",
   "status": "proved",
   "theorems": [
    "Ergodic.C107_images",
    "Ergodic.C107_same_iff",
    "Ergodic.C107_inside",
    "Ergodic.C107_one",
    "Ergodic.C107_coefficients",
    "Ergodic.C107_outside",
    "Ergodic.C107_gradient",
    "Ergodic.C107_edge",
    "Ergodic.C107_orthogonal"
   ],
   "note": "C107_same_iff in both directions; C107_outside constructs the image trajectory; C107_gradient and C107_edge for the controller's gradient; C107_orthogonal with interval integrals."
  },
  {
   "property": "C108",
   "status": "proved",
   "theorems": [
    "Ergodic.C108_too_fast",
    "Ergodic.C108_iteration",
    "Ergodic.C108_published",
    "Ergodic.C108_node",
    "Ergodic.C108_limits",
    "Ergodic.C108_check_same",
    "Ergodic.C108_validate_same",
    "Ergodic.C108_shipped",
    "Ergodic.C108_overflows"
   ],
   "note": "C108_published and C108_node by induction over histories; C108_shipped for both configuration files on ODbl; C108_validate_same transfers the rounded results; C108_overflows shows that overflow changes results."
  },
  {
   "property": "C109",
   "status": "proved",
   "theorems": [
    "Ergodic.C109_room",
    "Ergodic.C109_room_back",
    "Ergodic.C109_enough",
    "Ergodic.C109_every_horizon",
    "Ergodic.C109_multiple",
    "Ergodic.C109_enough_back",
    "Ergodic.C109_every_horizon_back",
    "Ergodic.C109_throws",
    "Ergodic.C109_throws_back"
   ],
   "note": "C109_room for every arithmetic; C109_every_horizon(_back), C109_multiple, C109_throws(_back) by induction over the loop. Complements the partial C54."
  },
  {
   "property": "C110",
   "status": "proved",
   "theorems": [
    "Ergodic.C110_queries",
    "Ergodic.C110_validate",
    "Ergodic.C110_window",
    "Ergodic.C110_control",
    "Ergodic.C110_omni",
    "Ergodic.C110_cart",
    "Ergodic.C110_twists"
   ],
   "note": "C110_omni and C110_cart compare the whole published output of two sessions; by a simulation relation over the events. Exact arithmetic only: with rounding the origin does matter."
  },
  {
   "property": "C111",
   "status": "proved",
   "theorems": [
    "Ergodic.C111_queries",
    "Ergodic.C111_control",
    "Ergodic.C111_omni",
    "Ergodic.C111_cart",
    "Ergodic.C111_binary",
    "Ergodic.C111_threshold"
   ],
   "note": "C111_omni, C111_cart, C111_binary for every arithmetic by a simulation relation; C111_threshold gives the hypothesis in exact arithmetic."
  },
  {
   "property": "C112",
   "status": "proved",
   "theorems": [
    "Ergodic.C112_queries",
    "Ergodic.C112_queries_near",
    "Ergodic.C112_validate",
    "Ergodic.C112_window",
    "Ergodic.C112_trace",
    "Ergodic.C112_omni",
    "Ergodic.C112_cart"
   ],
   "note": "C112_queries for every arithmetic; C112_queries_near, C112_validate, C112_window and the histories C112_omni, C112_cart in exact arithmetic."
  },
  {
   "property": "C113",
   "status": "proved",
   "theorems": [
    "Ergodic.C113_fill",
    "Ergodic.C113_order",
    "Ergodic.C113_repeat",
    "Ergodic.C113_fill_iff",
    "Ergodic.C113_weight"
   ],
   "note": "C113_fill for proportional densities; C113_order and C113_repeat for sessions of both executables, by a simulation relation. C113_fill_iff is the converse for targets with at least one Gaussian; C113_weight says that a target listed twice weighs twice."
  },
  {
   "property": "C114",
   "status": "partial",
   "theorems": [
    "Ergodic.C114_reads",
    "Ergodic.C114_whole",
    "Ergodic.C114_safe",
    "Ergodic.C114_window_partial",
    "Ergodic.C114_limits",
    "Ergodic.C114_refuted"
   ],
   "note": "Refuted: readings 0 and 1 for the two ends of an axis and an acceleration of a tenth offer the sample one half, which the search returns. Proved instead: every reading is that component of some message (C114_reads), an iteration without an assignment between the reads is one with whole callbacks (C114_whole), the velocity limits hold and every sample lies within the acceleration of the interval between the two readings (C114_window_partial, C114_limits), and what is published is collision-free on the map or zero as before (C114_safe)."
  },
  {
   "property": "C115",
   "status": "proved",
   "theorems": [
    "Ergodic.C115_closed_loop",
    "Ergodic.C115_resend",
    "Ergodic.C115_repeat"
   ],
   "note": "C115_closed_loop combines C89 and C114: the robot is free at every iteration. C115_resend: storing the same map again during a check changes nothing; C115_repeat: odometry that repeats the velocity is not noticed. Assumes, as C89, that every iteration finds the transform and that the robot carries out twists exactly; with lost transforms or changing maps it is false (C89_refuted_lost, C71_refuted)."
  },
  {
   "property": "C116",
   "status": "proved",
   "theorems": [
    "Ergodic.C116_closed_loop",
    "Ergodic.C116_shipped"
   ],
   "note": "C116_closed_loop (general parameters) and C116_shipped (the two shipped configurations at ten iterations a second). The distance is to a pose at which the check is free, so the clearance left is what C25, C26 and C87 say a free check guarantees minus the distance. An example builds a two-iteration history of the shipped omni node with real errors. Assumes, as C89, an unchanging map and that every iteration finds the transform (false otherwise: C89_refuted_lost, C71_refuted)."
  },
  {
   "property": "C117",
   "status": "proved",
   "theorems": [
    "Ergodic.C117_cells",
    "Ergodic.C117_motion",
    "Ergodic.C117_two",
    "Ergodic.C117_closed_loop",
    "Ergodic.C117_shipped",
    "Ergodic.C117_sharp",
    "Ergodic.C117_rounded",
    "Ergodic.C117_single",
    "Ergodic.C117_rounded_loop"
   ],
   "note": "C117_cells: for any arithmetic, in cells, by induction over the checks with the invariant that the obstacle is further out than the innermost run of three consecutive rows the circles close. C117_motion and C117_two: in metres. C117_shipped: the shipped radii. C117_closed_loop: for both nodes. C117_sharp: two cells of padding do not suffice at a boundary radius of 22 cells. C117_rounded: in rounded arithmetic, with every check made at a pose that is slightly off. C117_single: the shipped radii on maps whose message says 0.1 m per cell in single precision, where every radius is a cell short. C117_rounded_loop: for both nodes in rounded arithmetic, with imprecise transforms and motion and callbacks at any moment."
  },
  {
   "property": "C118",
   "status": "partial",
   "theorems": [
    "Ergodic.C118_seen_partial",
    "Ergodic.C118_scans_partial",
    "Ergodic.C118_avoided_partial",
    "Ergodic.C118_erased",
    "Ergodic.C118_refuted"
   ],
   "note": "The statement is false (C118_refuted): beams are entered one after the other, and a beam that crosses a cell on its way to a farther one lowers it even if another beam of the same scan has just ended in it; two such beams after a hit on an unknown cell bring it from 90 to 71 %. C118_seen_partial: at most one crossing beam, in any order, and a value of at least 48 before: the cell is an obstacle. C118_scans_partial: for any number of scans. C118_avoided_partial: together with the collision check (C117) the robot never gets the obstacle inside its boundary radius. C118_erased: five beams that cross the cell after the last hit erase it, whatever its history (unless it is stuck at 100)."
  },
  {
   "property": "C119",
   "status": "partial",
   "theorems": [
    "Ergodic.C119_stuck",
    "Ergodic.C119_omni",
    "Ergodic.C119_cart",
    "Ergodic.C119_refuted_wall",
    "Ergodic.C119_refuted",
    "Ergodic.C119_way_out_partial"
   ],
   "note": "false: the first step of every rollout must already be free, so 72 cm from a wall (radius 70 cm plus padding) the shipped nodes publish zero for ever; proved: the exact trap (any arithmetic, both shipped nodes in IEEE doubles) and that a free sample is never passed over"
  },
  {
   "property": "C120",
   "status": "partial",
   "theorems": [
    "Ergodic.C120_angle",
    "Ergodic.C120_drift",
    "Ergodic.C120_same_map_partial",
    "Ergodic.C120_refuted"
   ],
   "note": "false close to the lines between cells: with an increment of 2^-10 + 2^-24 the direction of beam 1024 is off by 2^-14 rad and its hit goes to the neighbouring cell; proved: the bound on the drift, that it is attained up to a factor of two, and that the map is the same away from the lines"
  },
  {
   "property": "C121",
   "status": "proved",
   "theorems": [
    "Ergodic.C121_latest",
    "Ergodic.C121_latest_node",
    "Ergodic.C121_queues",
    "Ergodic.C121_odom",
    "Ergodic.C121_draws"
   ],
   "note": "All three parts are non-interference theorems over pairs of histories."
  },
  {
   "property": "C122",
   "status": "partial",
   "theorems": [
    "Ergodic.C122_found_traj",
    "Ergodic.C122_found_twist",
    "Ergodic.C122_stay",
    "Ergodic.C122_rest_sample",
    "Ergodic.C122_node_partial",
    "Ergodic.C122_cart_sample",
    "Ergodic.C122_cart_partial",
    "Ergodic.C122_omni_sideways",
    "Ergodic.C122_omni_fails",
    "Ergodic.C122_refuted"
   ],
   "note": "True for the cart (C122_cart_partial, exactly in double precision; the zero twist is a sample). False for the omnidirectional robot (C122_refuted): vy_samples is 8, so at rest every sampled twist goes sideways at 7 cm/s or more (C122_omni_sideways), and in a corridor that is just wide enough every rollout collides (C122_omni_fails). C122_rest_sample says exactly which windows contain the zero twist; C122_node_partial is the exact-arithmetic statement for a whole iteration; C122_found_traj and C122_found_twist say that with rounding a free sampled twist is never missed."
  },
  {
   "property": "C123",
   "status": "proved",
   "theorems": [
    "Ergodic.C123_slopes",
    "Ergodic.C123_products",
    "Ergodic.C123_gradient",
    "Ergodic.C123_model_gradient",
    "Ergodic.C123_fsum",
    "Ergodic.C123_model_traj",
    "Ergodic.C123_model_spatial",
    "Ergodic.C123_model_fill",
    "Ergodic.C123_any_order",
    "Ergodic.C123_basis",
    "Ergodic.C123_trajectory",
    "Ergodic.C123_spatial",
    "Ergodic.C123_normalised",
    "Ergodic.C123_sum_one",
    "Ergodic.C123_target",
    "Ergodic.C123_shipped",
    "Ergodic.C123_order_matters"
   ],
   "note": "Sums are trees of additions over a permutation of the terms (Model/Summation.lean); the order of the model is one of them (C123_fsum, C123_model_traj, C123_model_spatial, C123_model_fill). C123_any_order is the error of any such sum, C123_order_matters that binary64 results do depend on the order. C123_slopes and C123_gradient: the partial derivatives and the product gradFourierBasis * w against the derivative of the combination of basis functions. Fused multiply-add is not covered."
  },
  {
   "property": "C124",
   "status": "proved",
   "theorems": [
    "Ergodic.C124_grown",
    "Ergodic.C124_closed_loop",
    "Ergodic.C124_rounded",
    "Ergodic.C124_shipped"
   ],
   "note": "C124_closed_loop is exact arithmetic with whole callbacks; C124_rounded has rounding, callbacks at any moment and errors of the transform and the robot; C124_shipped is C124_rounded for the two shipped configurations; C124_grown turns the hypothesis on the collision check into one on the cells of a growing map. Generalises C89 and C116, whose map does not change."
  },
  {
   "property": "C125",
   "status": "proved",
   "theorems": [
    "Ergodic.C125_closed_loop",
    "Ergodic.C125_shipped",
    "Ergodic.C125_rounded"
   ],
   "note": "Generalises C117, whose map does not change, and unlike C124 does not assume that new obstacles keep their distance. C125_closed_loop is exact arithmetic with whole callbacks, C125_shipped is that for the shipped configurations, C125_rounded has rounding, callbacks at any moment and errors of the transform, the robot and the map origins."
  },
  {
   "property": "C126",
   "status": "proved",
   "theorems": [
    "Ergodic.C126_start",
    "Ergodic.C126_ranges",
    "Ergodic.C126_buffer",
    "Ergodic.C126_basis",
    "Ergodic.C126_sample"
   ],
   "note": "C126_start is for any arithmetic; C126_ranges gives the ranges in exact arithmetic; C126_buffer and C126_basis show undefined start-ups; C126_sample is about the replay memory."
  },
  {
   "property": "C127",
   "status": "proved",
   "theorems": [
    "Ergodic.C127_direction",
    "Ergodic.C127_exact",
    "Ergodic.C127_model",
    "Ergodic.C127_omni",
    "Ergodic.C127_cart",
    "Ergodic.C127_node_omni",
    "Ergodic.C127_node_cart",
    "Ergodic.C127_shipped",
    "Ergodic.C127_association_matters"
   ],
   "note": "C127_direction bounds the product, C127_omni and C127_cart the clamped update, C127_node_omni and C127_node_cart the update of a running node, C127_shipped gives a number; C127_exact and C127_model relate this to the model; C127_association_matters shows that the results differ in binary64. Fused multiply-add is not covered."
  },
  {
   "property": "C128",
   "status": "partial",
   "theorems": [
    "Ergodic.C128_evidence",
    "Ergodic.C128_seen_partial",
    "Ergodic.C128_scans_partial",
    "Ergodic.C128_avoided_partial",
    "Ergodic.C128_erased",
    "Ergodic.C128_refuted"
   ],
   "note": "C128_evidence gives the complete effect of a scan. The claim about obstacles is false when several beams cross the cell (C128_refuted, on binary64 numbers, by C128_erased); with at most one crossing beam it holds: C128_seen_partial, C128_scans_partial, C128_avoided_partial."
  },
  {
   "property": "C129",
   "status": "proved",
   "theorems": [
    "Ergodic.C129_query",
    "Ergodic.C129_iteration",
    "Ergodic.C129_run",
    "Ergodic.C129_omni",
    "Ergodic.C129_cart",
    "Ergodic.C129_target",
    "Ergodic.C129_ahead",
    "Ergodic.C129_answered",
    "Ergodic.C129_returns",
    "Ergodic.C129_omni_returns",
    "Ergodic.C129_exact_query",
    "Ergodic.C129_exact_avoid",
    "Ergodic.C129_exact_target",
    "Ergodic.C129_cart_iteration",
    "Ergodic.C129_cart_returns",
    "Ergodic.C129_cart_exact",
    "Ergodic.C129_lateral",
    "Ergodic.C129_cart_nan"
   ],
   "note": "C129_query, C129_iteration, C129_run, C129_omni and C129_cart say that nothing else can happen; C129_target and C129_ahead that the conversions are undefined when they do not fit. The ranges for cells and radii are those in which the int arithmetic of the circle sweep cannot overflow. C129_returns and C129_omni_returns say when the omni-directional node returns without an exception either: when every map has the data it declares, the target grid can be counted, the random integers are positions in the memory, the columns looked up exist and the conversions fit; C129_exact_* show that these conditions hold in exact arithmetic under the hypotheses of C77. C129_cart_returns, C129_cart_nan and C129_cart_exact are the same for the cart."
  },
  {
   "property": "C130",
   "status": "proved",
   "theorems": [
    "Ergodic.C130_update",
    "Ergodic.C130_mission",
    "Ergodic.C130_returns",
    "Ergodic.C130_pose",
    "Ergodic.C130_ends",
    "Ergodic.C130_value",
    "Ergodic.C130_values",
    "Ergodic.C130_rounded",
    "Ergodic.C130_points"
   ],
   "note": "C130_update and C130_mission say that nothing else can happen, C130_returns that a well-formed map takes in everything that fits, C130_pose, C130_ends and C130_value that the conversions matter, C130_values, C130_rounded and C130_points when they fit. int is unbounded in the model, which is exact for maps with sides up to 2^29 cells."
  },
  {
   "property": "C131",
   "status": "proved",
   "theorems": [
    "Ergodic.C131_meter",
    "Ergodic.C131_query",
    "Ergodic.C131_query_least",
    "Ergodic.C131_window",
    "Ergodic.C131_plan",
    "Ergodic.C131_plan_exact",
    "Ergodic.C131_iteration",
    "Ergodic.C131_run",
    "Ergodic.C131_known_size",
    "Ergodic.C131_once",
    "Ergodic.C131_scan_exact",
    "Ergodic.C131_plan_anew",
    "Ergodic.C131_valid_least",
    "Ergodic.C131_window_least",
    "Ergodic.C131_iteration_least",
    "Ergodic.C131_evasion_least",
    "Ergodic.C131_scan"
   ],
   "note": "C131_meter says that the metered model has the model's outcomes, C131_query, C131_query_least, C131_window, C131_plan and C131_plan_exact bound the parts, C131_iteration and C131_run an iteration and a history, C131_known_size and C131_once say that the target is not sampled again, C131_scan bounds the occupancy mapper, C131_scan_exact, C131_plan_anew, C131_valid_least, C131_window_least, C131_iteration_least and C131_evasion_least say what is really spent. Work is counted in calls of the named kinds, not in time; markers, logging and the copying of vectors are not priced."
  },
  {
   "property": "C132",
   "status": "partial",
   "theorems": [
    "Ergodic.C132_control",
    "Ergodic.C132_fresh",
    "Ergodic.C132_start",
    "Ergodic.C132_check_refuted",
    "Ergodic.C132_direction_refuted",
    "Ergodic.C132_ray_cells",
    "Ergodic.C132_ray_refuted",
    "Ergodic.C132_ray_partial",
    "Ergodic.C132_ray_short",
    "Ergodic.C132_ray_iff",
    "Ergodic.C132_takeover",
    "Ergodic.C132_loop",
    "Ergodic.C132_history",
    "Ergodic.C132_samples_refuted",
    "Ergodic.C132_window_refuted",
    "Ergodic.C132_target_refuted",
    "Ergodic.C132_samples",
    "Ergodic.C132_search",
    "Ergodic.C132_window",
    "Ergodic.C132_track",
    "Ergodic.C132_check",
    "Ergodic.C132_direction",
    "Ergodic.C132_validate",
    "Ergodic.C132_iteration",
    "Ergodic.C132_run"
   ],
   "note": "C132_control is the controller, C132_check, C132_direction and C132_validate the collision queries, C132_iteration and C132_run the node, C132_fresh and C132_start say where mirrored histories begin. C132_ray_partial, C132_ray_short, C132_ray_cells and C132_ray_iff treat rays. C132_check_refuted, C132_direction_refuted and C132_ray_refuted refute the statements without the conditions. C132_samples, C132_search, C132_window, C132_track, C132_takeover, C132_loop and C132_history treat the dynamic window and iterations in which it takes over; C132_samples_refuted, C132_window_refuted and C132_target_refuted show that their conditions matter. The histories of C132_history are those without an error in the original world."
  },
  {
   "property": "C133",
   "status": "proved",
   "theorems": [
    "Ergodic.C133_control",
    "Ergodic.C133_window",
    "Ergodic.C133_track",
    "Ergodic.C133_takeover",
    "Ergodic.C133_loop",
    "Ergodic.C133_history",
    "Ergodic.C133_fresh",
    "Ergodic.C133_start",
    "Ergodic.C133_scan",
    "Ergodic.C133_scans",
    "Ergodic.C133_check",
    "Ergodic.C133_direction",
    "Ergodic.C133_ray",
    "Ergodic.C133_ray_cells",
    "Ergodic.C133_validate",
    "Ergodic.C133_quarter",
    "Ergodic.C133_quarter_check",
    "Ergodic.C133_quarter_validate"
   ],
   "note": "C133_control is the controller, C133_check, C133_direction and C133_validate the collision queries, C133_ray and C133_ray_cells rays, C133_scan and C133_scans the mapper, C133_window and C133_track the searches, C133_takeover, C133_loop and C133_history the node, C133_fresh and C133_start say where exchanged histories begin. Unlike reflections (C132) the exchange needs no condition on edges, on the target grid or on rays. The histories are those without an error in the original world in which simulated poses stay in the map up to the first collision and one sample is the cheapest; C132_window_refuted shows why the last condition is needed. C133_quarter, C133_quarter_check and C133_quarter_validate compose the exchange with a flip of C132; the queries keep its condition on edges, C133_quarter the condition that limits and weights have no side and that the height of the map is a multiple of the target grid."
  },
  {
   "property": "C134",
   "status": "partial",
   "theorems": [
    "Ergodic.C134_cell",
    "Ergodic.C134_check",
    "Ergodic.C134_distance",
    "Ergodic.C134_direction",
    "Ergodic.C134_validate",
    "Ergodic.C134_scan",
    "Ergodic.C134_basis",
    "Ergodic.C134_target",
    "Ergodic.C134_barrier_refuted",
    "Ergodic.C134_preference"
   ],
   "note": "C134_cell, C134_check, C134_distance, C134_direction, C134_validate, C134_scan, C134_basis and C134_target are the parts that do not depend on the unit. C134_barrier_refuted refutes the statement about the barrier; C134_preference gives, for any surroundings, two twists between which the preference changes. C134_target requires that the map counts as new in both units, as the comparison of extents has an absolute tolerance."
  },
  {
   "property": "C135",
   "status": "partial",
   "theorems": [
    "Ergodic.C135_control",
    "Ergodic.C135_fresh",
    "Ergodic.C135_fresh_window",
    "Ergodic.C135_start",
    "Ergodic.C135_validate",
    "Ergodic.C135_track",
    "Ergodic.C135_window",
    "Ergodic.C135_iteration",
    "Ergodic.C135_run",
    "Ergodic.C135_motion_refuted"
   ],
   "note": "C135_run is the statement for whole histories; C135_control needs no condition for the omnidirectional model. C135_motion_refuted refutes the unconditional statement about simulated motion."
  },
  {
   "property": "C136",
   "status": "partial",
   "theorems": [
    "Ergodic.C136_check",
    "Ergodic.C136_clear",
    "Ergodic.C136_horizon",
    "Ergodic.C136_validate",
    "Ergodic.C136_window",
    "Ergodic.C136_wider_refuted",
    "Ergodic.C136_fuller_clear",
    "Ergodic.C136_fuller_window",
    "Ergodic.C136_fuller_follow",
    "Ergodic.C136_fuller_track"
   ],
   "note": "C136_window, C136_fuller_window, C136_fuller_follow and C136_fuller_track need errors to the reference below 2^1000 (C57); the last two need the matched columns of the reference to exist (C58). C136_wider_refuted refutes that raising the boundary radius alone never loses a collision."
  },
  {
   "property": "C137",
   "status": "proved",
   "theorems": [
    "Ergodic.C137_tick",
    "Ergodic.C137_run",
    "Ergodic.C137_omni",
    "Ergodic.C137_cart",
    "Ergodic.C137_passed",
    "Ergodic.C137_empty",
    "Ergodic.C137_cautious"
   ],
   "note": "C137_run is the statement for whole histories in every arithmetic, C137_omni and C137_cart the one for executables whose parameters differ in the detector, the window and the validation, C137_cautious the one about less caution and fewer obstacles."
  },
  {
   "property": "C138",
   "status": "partial",
   "theorems": [
    "Ergodic.C138_samples",
    "Ergodic.C138_window",
    "Ergodic.C138_track",
    "Ergodic.C138_refuted"
   ],
   "note": "C138_samples, C138_window and C138_track for refinements; the searches need errors to the reference below 2^1000 (C57), C138_track also that the matched columns of the reference exist (C58). C138_refuted refutes that a larger number of samples never does worse."
  }
 ]
}