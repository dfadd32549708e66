Axioms of each theorem in MANIFEST.json, as Lean reports them (#print axioms).

CrowdDynamics.C01_wrap_range: Classical.choice, Quot.sound, propext
CrowdDynamics.C01_wrap_congruent: Classical.choice, Quot.sound, propext
CrowdDynamics.C01_wrap_odd_multiples: Classical.choice, Quot.sound, propext
CrowdDynamics.C01_wrap_fixes_range: Classical.choice, Quot.sound, propext
CrowdDynamics.C01_wrap_idempotent: Classical.choice, Quot.sound, propext
CrowdDynamics.C01_wrap_neg: Classical.choice, Quot.sound, propext
CrowdDynamics.C02_rotate_inverse: Classical.choice, Quot.sound, propext
CrowdDynamics.C02_rotate_isometry: Classical.choice, Quot.sound, propext
CrowdDynamics.C02_length_dot_cross: Classical.choice, Quot.sound, propext
CrowdDynamics.C02_normalize_unit: Classical.choice, Quot.sound, propext
CrowdDynamics.C02_normalize_zero: Classical.choice, Quot.sound, propext
CrowdDynamics.C02_truncate_short: Classical.choice, Quot.sound, propext
CrowdDynamics.C02_truncate_long: Classical.choice, Quot.sound, propext
CrowdDynamics.C03_unit_vector_length: Classical.choice, Quot.sound, propext
CrowdDynamics.C03_angle_range: Classical.choice, Quot.sound, propext
CrowdDynamics.C03_angle_unit_vector: Classical.choice, Quot.sound, propext
CrowdDynamics.C03_unit_vector_angle: Classical.choice, Quot.sound, propext
CrowdDynamics.C04_weighted_average_unit_fails: Classical.choice, Quot.sound, propext
CrowdDynamics.C04_weighted_average_partial: Classical.choice, Quot.sound, propext
CrowdDynamics.C05_polygon_area_shoelace: Classical.choice, Quot.sound, propext
CrowdDynamics.C05_polygon_area_nonneg: Classical.choice, Quot.sound, propext
CrowdDynamics.C05_polygon_area_triangle: Classical.choice, Quot.sound, propext
CrowdDynamics.C05_polygon_area_affine: Classical.choice, Quot.sound, propext
CrowdDynamics.C05_polygon_area_rotate: Classical.choice, Quot.sound, propext
CrowdDynamics.C05_polygon_area_reverse: Classical.choice, Quot.sound, propext
CrowdDynamics.C05_polygon_area_cut: Classical.choice, Quot.sound, propext
CrowdDynamics.C06_line_intersect_sound: Classical.choice, Quot.sound, propext
CrowdDynamics.C06_line_intersect_exact_partial: Classical.choice, Quot.sound, propext
CrowdDynamics.C06_line_intersect_parallel: Classical.choice, Quot.sound, propext
CrowdDynamics.C06_line_intersect_collinear_fails: Classical.choice, Quot.sound, propext
CrowdDynamics.C06_line_intersect_symm: Classical.choice, Quot.sound, propext
CrowdDynamics.C07_obstacle_between_iff: Classical.choice, Quot.sound, propext
CrowdDynamics.C07_obstacle_between_symm: Classical.choice, Quot.sound, propext
CrowdDynamics.C07_obstacle_between_mono: Classical.choice, Quot.sound, propext
CrowdDynamics.C07_obstacle_between_trivial: Classical.choice, Quot.sound, propext
CrowdDynamics.C08_circles_distance: Classical.choice, Quot.sound, propext
CrowdDynamics.C08_circles_overlap_iff: Classical.choice, Quot.sound, propext
CrowdDynamics.C08_circles_normal: Classical.choice, Quot.sound, propext
CrowdDynamics.C08_circles_normal_coinciding: Classical.choice, Quot.sound, propext
CrowdDynamics.C08_circles_swap: Classical.choice, Quot.sound, propext
CrowdDynamics.C09_three_circles_partial: Classical.choice, Quot.sound, propext
CrowdDynamics.C09_three_circles_symm: Classical.choice, Quot.sound, propext
CrowdDynamics.C09_three_circles_moment_fails: Classical.choice, Quot.sound, propext
CrowdDynamics.C10_circle_line_distance: Classical.choice, Quot.sound, propext
CrowdDynamics.C10_circle_line_degenerate: Classical.choice, Quot.sound, propext
CrowdDynamics.C11_three_circle_line: Classical.choice, Quot.sound, propext
CrowdDynamics.C11_three_circle_line_degenerate: Classical.choice, Quot.sound, propext
CrowdDynamics.C12_nearest_exact: Classical.choice, Quot.sound, propext
CrowdDynamics.C12_getitem_exact: Classical.choice, Quot.sound, propext
CrowdDynamics.C12_lookup_pure: Classical.choice, Quot.sound, propext
CrowdDynamics.C12_init: Quot.sound, propext
CrowdDynamics.C13_nearest_complete: Classical.choice, Quot.sound, propext
CrowdDynamics.C13_nearest_sound: Classical.choice, Quot.sound, propext
CrowdDynamics.C14_agents_disjoint: Classical.choice, Quot.sound, propext
CrowdDynamics.C14_clear_of_obstacles: Classical.choice, Quot.sound, propext
CrowdDynamics.C15_any_radius_fails: Classical.choice, Quot.sound, propext
CrowdDynamics.C15_any_radius_partial: Classical.choice, Quot.sound, propext
CrowdDynamics.C16_shipped_values: Classical.choice, Quot.sound, propext
CrowdDynamics.C16_body_within: Classical.choice, Quot.sound, propext
CrowdDynamics.C16_default_cells: Classical.choice, Quot.sound, propext
CrowdDynamics.C16_placed_disjoint: Classical.choice, Quot.sound, propext
CrowdDynamics.C16_interactions_complete: Classical.choice, Quot.sound, propext
CrowdDynamics.C16_unknown_name: Classical.choice, Quot.sound, propext
CrowdDynamics.C17_bookkeeping: Classical.choice, Quot.sound, propext
CrowdDynamics.C17_type_mismatch: Classical.choice, Quot.sound, propext
CrowdDynamics.C17_rows: Classical.choice, Quot.sound, propext
CrowdDynamics.C17_positions: Classical.choice, Quot.sound, propext
CrowdDynamics.C18_shoulders_attached_fails: Classical.choice, Quot.sound, propext
CrowdDynamics.C18_no_overlap_fails: Classical.choice, Quot.sound, propext
CrowdDynamics.C18_shoulders_attached_partial: Classical.choice, Quot.sound, propext
CrowdDynamics.C18_no_overlap_partial: Classical.choice, Quot.sound, propext
CrowdDynamics.C18_body_within_partial: Classical.choice, Quot.sound, propext
CrowdDynamics.C19_timestep_bounds: Classical.choice, Quot.sound, propext
CrowdDynamics.C19_timestep_rest: Classical.choice, Quot.sound, propext
CrowdDynamics.C19_timestep_value: Classical.choice, Quot.sound, propext
CrowdDynamics.C19_step_length: Classical.choice, Quot.sound, propext
CrowdDynamics.C19_timestep_perm: Classical.choice, Quot.sound, propext
CrowdDynamics.C20_euler_exact: Classical.choice, Quot.sound, propext
CrowdDynamics.C20_euler_rotation: Classical.choice, Quot.sound, propext
CrowdDynamics.C20_euler_integrator: Classical.choice, Quot.sound, propext
CrowdDynamics.C21_verlet_exact_fails: Classical.choice, Quot.sound, propext
CrowdDynamics.C21_verlet_exact_partial: Classical.choice, Quot.sound, propext
CrowdDynamics.C21_verlet_error_partial: Classical.choice, Quot.sound, propext
CrowdDynamics.C21_verlet_velocity_partial: Classical.choice, Quot.sound, propext
CrowdDynamics.C22_verlet_shoulders: Classical.choice, Quot.sound, propext
CrowdDynamics.C22_verlet_init_shoulders: Classical.choice, Quot.sound, propext
CrowdDynamics.C23_euler_rotates_fails: Classical.choice, Quot.sound, propext
CrowdDynamics.C23_euler_frozen_partial: Classical.choice, Quot.sound, propext
CrowdDynamics.C23_rotates_partial: Classical.choice, Quot.sound, propext
CrowdDynamics.C24_reported_time_is_first_touch: Classical.choice, Quot.sound, propext
CrowdDynamics.C24_reported_iff: Classical.choice, Quot.sound, propext
CrowdDynamics.C25_social_force_is_energy_gradient: Classical.choice, Quot.sound, propext
CrowdDynamics.C25_potential: Classical.choice, Quot.sound, propext
CrowdDynamics.C25_zero_without_collision: Classical.choice, Quot.sound, propext
CrowdDynamics.C25_force_bounded: Classical.choice, Quot.sound, propext
CrowdDynamics.C26_circular_third_law: Classical.choice, Quot.sound, propext
CrowdDynamics.C26_circular_antiparallel: Classical.choice, Quot.sound, propext
CrowdDynamics.C26_circular_swap: Classical.choice, Quot.sound, propext
CrowdDynamics.C26_circular_galilean: Classical.choice, Quot.sound, propext
CrowdDynamics.C26_three_circle_third_law: Classical.choice, Quot.sound, propext
CrowdDynamics.C26_three_circle_antiparallel: Classical.choice, Quot.sound, propext
CrowdDynamics.C26_three_circle_galilean: Classical.choice, Quot.sound, propext
CrowdDynamics.C26_three_circle_swap_fails: Classical.choice, Quot.sound, propext
CrowdDynamics.C26_three_circle_swap_partial: Classical.choice, Quot.sound, propext
CrowdDynamics.C27_nonzero_force_earliest_partial: Classical.choice, Quot.sound, propext
CrowdDynamics.C27_torsos_collide_partial: Classical.choice, Quot.sound, propext
CrowdDynamics.C27_zero_without_collision: Classical.choice, Quot.sound, propext
CrowdDynamics.C27_earliest_contact_fails: Classical.choice, Quot.sound, propext
CrowdDynamics.C28_damping_accelerates_fails: Classical.choice, Quot.sound, propext
CrowdDynamics.C28_parts_partial: Classical.choice, Quot.sound, propext
CrowdDynamics.C28_elastic_pushes_partial: Classical.choice, Quot.sound, propext
CrowdDynamics.C28_friction_dissipates_partial: Classical.choice, Quot.sound, propext
CrowdDynamics.C28_damping_power_partial: Classical.choice, Quot.sound, propext
CrowdDynamics.C28_overlapping_pushed_apart_partial: Classical.choice, Quot.sound, propext
CrowdDynamics.C29_circular_momentum: Classical.choice, Quot.sound, propext
CrowdDynamics.C29_threeCircle_momentum: Classical.choice, Quot.sound, propext
CrowdDynamics.C29_pair_order: Classical.choice, Quot.sound, propext
CrowdDynamics.C29_circular_frame: Classical.choice, Quot.sound, propext
CrowdDynamics.C29_threeCircle_frame: Classical.choice, Quot.sound, propext
CrowdDynamics.C30_circular_far: Classical.choice, Quot.sound, propext
CrowdDynamics.C30_threeCircle_far: Classical.choice, Quot.sound, propext
CrowdDynamics.C30_circular_cells: Classical.choice, Quot.sound, propext
CrowdDynamics.C30_threeCircle_cells: Classical.choice, Quot.sound, propext
CrowdDynamics.C31_circular_walls: Classical.choice, Quot.sound, propext
CrowdDynamics.C31_threeCircle_walls: Classical.choice, Quot.sound, propext
CrowdDynamics.C31_wall_order: Classical.choice, Quot.sound, propext
CrowdDynamics.C31_agent_order: Classical.choice, Quot.sound, propext
CrowdDynamics.C31_clear_unchanged: Classical.choice, Quot.sound, propext
CrowdDynamics.C31_wall_repels: Classical.choice, Quot.sound, propext
CrowdDynamics.C32_force_zero_iff: Classical.choice, Quot.sound, propext
CrowdDynamics.C32_force_relaxes: Classical.choice, Quot.sound, propext
CrowdDynamics.C32_torque_short_way: Classical.choice, Quot.sound, propext
CrowdDynamics.C32_torque_zero_iff: Classical.choice, Quot.sound, propext
CrowdDynamics.C32_torque_mirror: Classical.choice, Quot.sound, propext
CrowdDynamics.C32_torque_bounded: Classical.choice, Quot.sound, propext
CrowdDynamics.C32_adjusting_rows: Classical.choice, Quot.sound, propext
CrowdDynamics.C33_truncnorm_range: Classical.choice, Quot.sound, propext
CrowdDynamics.C33_random_vector: Classical.choice, Quot.sound, propext
CrowdDynamics.C33_fluctuation_bounded: Classical.choice, Quot.sound, propext
CrowdDynamics.C34_steps: Classical.choice, Quot.sound, propext
CrowdDynamics.C34_monotone: Classical.choice, Quot.sound, propext
CrowdDynamics.C34_layer_eq_agent: Classical.choice, Quot.sound, propext
CrowdDynamics.C35_rank: Classical.choice, Quot.sound, propext
CrowdDynamics.C35_count_closer: Classical.choice, Quot.sound, propext
CrowdDynamics.C36_nearest: Classical.choice, Quot.sound, propext
CrowdDynamics.C36_node: Classical.choice, Quot.sound, propext
CrowdDynamics.C37_clock_ticks: Classical.choice, Quot.sound, propext
CrowdDynamics.C37_clock_terminates: Classical.choice, Quot.sound, propext
CrowdDynamics.C37_timings_sorted: Classical.choice, Quot.sound, propext
CrowdDynamics.C37_timings_terminate: Classical.choice, Quot.sound, propext
CrowdDynamics.C38_line: Classical.choice, Quot.sound, propext
CrowdDynamics.C38_triangle: Classical.choice, Quot.sound, propext
CrowdDynamics.C38_linestring: Classical.choice, Quot.sound, propext
CrowdDynamics.C38_polygon: Classical.choice, Quot.sound, propext
CrowdDynamics.C39_probability: Classical.choice, Quot.sound, propext
CrowdDynamics.C39_valid: Classical.choice, Quot.sound, propext
CrowdDynamics.C40_sorted_partial: Classical.choice, Quot.sound, propext
CrowdDynamics.C40_linestring_fails: Classical.choice, Quot.sound, propext
CrowdDynamics.C40_never_chosen_fails: Classical.choice, Quot.sound, propext
CrowdDynamics.C40_single_partial: Classical.choice, Quot.sound, propext
CrowdDynamics.C41_nearest: Classical.choice, Quot.sound, propext
CrowdDynamics.C41_all_if_few: Classical.choice, Quot.sound, propext
CrowdDynamics.C41_zero_raises: Classical.choice, Quot.sound, propext
CrowdDynamics.C42_meaning: Classical.choice, Quot.sound, propext
CrowdDynamics.C42_symmetric: Classical.choice, Quot.sound, propext
CrowdDynamics.C42_direction: Classical.choice, Quot.sound, propext
CrowdDynamics.C42_unit_or_zero: Classical.choice, Quot.sound, propext
CrowdDynamics.C43_leader_follower: Classical.choice, Quot.sound, propext
CrowdDynamics.C43_no_new_targets: Classical.choice, Quot.sound, propext
CrowdDynamics.C43_with_herding: Classical.choice, Quot.sound, propext
CrowdDynamics.C43_herding_direction: Classical.choice, Quot.sound, propext
CrowdDynamics.C44_once: Quot.sound, propext
CrowdDynamics.C44_children_first: Classical.choice, Quot.sound, propext
CrowdDynamics.C44_inject_before: Classical.choice, Quot.sound, propext
CrowdDynamics.C44_inject_after: Classical.choice, Quot.sound, propext
CrowdDynamics.C44_inject_new: Classical.choice, Quot.sound, propext
CrowdDynamics.C44_edits: Classical.choice, Quot.sound, propext
CrowdDynamics.C45_iterations: Classical.choice, Quot.sound, propext
CrowdDynamics.C45_stops: Quot.sound, propext
CrowdDynamics.C45_no_exit: Classical.choice, Quot.sound, propext
CrowdDynamics.C45_time: Classical.choice, Quot.sound, propext
CrowdDynamics.C45_time_exception: Classical.choice, Quot.sound, propext
CrowdDynamics.C46_caught_partial: propext
CrowdDynamics.C46_other_exception: propext
CrowdDynamics.C46_fails: Classical.choice, Quot.sound, propext
CrowdDynamics.C47_flags: Classical.choice, Quot.sound, propext
CrowdDynamics.C47_bound_partial: Classical.choice, Quot.sound, propext
CrowdDynamics.C47_no_return_partial: Classical.choice, Quot.sound, propext
CrowdDynamics.C47_constructed_partial: Classical.choice, Quot.sound, propext
CrowdDynamics.C47_fails: Classical.choice, Quot.sound, propext
CrowdDynamics.C48_polygon_error: Classical.choice, Quot.sound, propext
CrowdDynamics.C48_partial: Classical.choice, Quot.sound, propext
CrowdDynamics.C48_fails: Classical.choice, Quot.sound, propext
CrowdDynamics.C49_at_dump: Classical.choice, Quot.sound, propext
CrowdDynamics.C49_undisturbed_partial: Classical.choice, Quot.sound, propext
CrowdDynamics.C49_every_frame_partial: Classical.choice, Quot.sound, propext
CrowdDynamics.C49_crash: Classical.choice, Quot.sound, propext
CrowdDynamics.C49_copies_of_last: Classical.choice, Quot.sound, propext
CrowdDynamics.C49_fails: Classical.choice, Quot.sound, propext
CrowdDynamics.C50_exactly_partial: Classical.choice, Quot.sound, propext
CrowdDynamics.C50_no_digits_partial: Classical.choice, Quot.sound, propext
CrowdDynamics.C50_fails: Classical.choice, Quot.sound, propext
CrowdDynamics.C50_whitespace: Classical.choice, Quot.sound, propext
CrowdDynamics.C50_other_basename: Classical.choice, Quot.sound, propext
CrowdDynamics.C51_durable: Classical.choice, Quot.sound, propext
CrowdDynamics.C51_failed_dump: Classical.choice, Quot.sound, propext
CrowdDynamics.C51_protocol: Classical.choice, Quot.sound, propext
CrowdDynamics.C52_lists_partial: Quot.sound, propext
CrowdDynamics.C52_single: Quot.sound, propext
CrowdDynamics.C52_twice: propext
CrowdDynamics.C52_fails: Classical.choice, Quot.sound, propext
CrowdDynamics.C52_multi: Quot.sound, propext
CrowdDynamics.C53_dimensions: Classical.choice, Quot.sound, propext
CrowdDynamics.C54_inertia_fails: Classical.choice, Quot.sound, propext
CrowdDynamics.C54_inertia_partial: Classical.choice, Quot.sound, propext
CrowdDynamics.C54_inertia_stays_partial: Classical.choice, Quot.sound, propext
CrowdDynamics.C55_unmodified_partial: Classical.choice, Quot.sound, propext
CrowdDynamics.C55_repeat_partial: Classical.choice, Quot.sound, propext
CrowdDynamics.C55_modified_fails: Classical.choice, Quot.sound, propext
CrowdDynamics.C56_grid: Classical.choice, Quot.sound, propext
CrowdDynamics.C56_index: Classical.choice, Quot.sound, propext
CrowdDynamics.C56_valid_iff: Classical.choice, Quot.sound, propext
CrowdDynamics.C56_navigation: Classical.choice, Quot.sound, propext
CrowdDynamics.C57_far: Classical.choice, Quot.sound, propext
CrowdDynamics.C57_near: Classical.choice, Quot.sound, propext
CrowdDynamics.C57_unit: Classical.choice, Quot.sound, propext
CrowdDynamics.C57_continuous_partial: Classical.choice, Quot.sound, propext
CrowdDynamics.C57_array_partial: Classical.choice, Quot.sound, propext
CrowdDynamics.C57_continuous_fails: Classical.choice, Quot.sound, propext
CrowdDynamics.C58_linestring: Classical.choice, Quot.sound, propext
CrowdDynamics.C58_shells: Classical.choice, Quot.sound, propext
CrowdDynamics.C58_obstacles: Classical.choice, Quot.sound, propext
CrowdDynamics.C58_holefree_partial: Classical.choice, Quot.sound, propext
CrowdDynamics.C58_hole_fails: Classical.choice, Quot.sound, propext
CrowdDynamics.C59_single_partial: Classical.choice, Quot.sound, propext
CrowdDynamics.C59_multi_fails: Classical.choice, Quot.sound, propext
CrowdDynamics.C60_holefree_partial: Classical.choice, Quot.sound, propext
CrowdDynamics.C60_among_partial: Classical.choice, Quot.sound, propext
CrowdDynamics.C60_hole_zero: Classical.choice, Quot.sound, propext
CrowdDynamics.C60_hole_fails: Classical.choice, Quot.sound, propext
CrowdDynamics.C61_classical_never: Classical.choice, Quot.sound, propext
CrowdDynamics.C61_fails: Classical.choice, Quot.sound, propext
CrowdDynamics.C61_core_partial: Classical.choice, Quot.sound, propext
CrowdDynamics.C61_voronoi2_partial: Classical.choice, Quot.sound, propext
CrowdDynamics.C61_voronoi2_fails: Classical.choice, Quot.sound, propext
CrowdDynamics.C61_negative_fails: Classical.choice, Quot.sound, propext
CrowdDynamics.C61_voronoi1_partial: Classical.choice, Quot.sound, propext
CrowdDynamics.C61_empty_cell_fails: Classical.choice, Quot.sound, propext
CrowdDynamics.C61_voronoi1_fails: Classical.choice, Quot.sound, propext
CrowdDynamics.C62_restores: Classical.choice, Quot.sound, propext
CrowdDynamics.C62_nested: Classical.choice, Quot.sound, propext
CrowdDynamics.C62_gone: Classical.choice, Quot.sound, propext
CrowdDynamics.C62_no_start: Classical.choice, Quot.sound, propext
CrowdDynamics.C63_exact_partial: Quot.sound, propext
CrowdDynamics.C63_last_fails: Quot.sound, propext
CrowdDynamics.C63_options_fails: Quot.sound, propext
CrowdDynamics.C63_fails: Quot.sound, propext
CrowdDynamics.C64_from_array: Classical.choice, Quot.sound, propext
CrowdDynamics.C64_round_trip: Classical.choice, Quot.sound, propext
CrowdDynamics.C65_flag_unread: Classical.choice, Quot.sound, propext
CrowdDynamics.C65_fails: Classical.choice, Quot.sound, propext
CrowdDynamics.C66_body: Classical.choice, Quot.sound, propext
CrowdDynamics.C66_forces: Classical.choice, Quot.sound, propext
CrowdDynamics.C67_generator_fails: Quot.sound, propext
CrowdDynamics.C67_exhausted_fails: Classical.choice, Quot.sound, propext
CrowdDynamics.C67_collection_partial: Quot.sound, propext
CrowdDynamics.C67_callable_partial: Quot.sound, propext
CrowdDynamics.C67_resize_partial: Classical.choice, Quot.sound, propext
CrowdDynamics.C67_refused_partial: Classical.choice, Quot.sound, propext
CrowdDynamics.C67_collection_size_fails: Quot.sound, propext
CrowdDynamics.C67_fails: Classical.choice, Quot.sound, propext
CrowdDynamics.C68_independent: Classical.choice, Quot.sound, propext
CrowdDynamics.C68_targets: Classical.choice, Quot.sound, propext
CrowdDynamics.C69_moment_contact_point_fails: Classical.choice, Quot.sound, propext
CrowdDynamics.C69_moment_arm_partial: Classical.choice, Quot.sound, propext
CrowdDynamics.C70_only_placed_rows_fails: Classical.choice, Quot.sound, propext
CrowdDynamics.C70_only_placed_rows_partial: Classical.choice, Quot.sound, propext
CrowdDynamics.C70_unused_rows: Classical.choice, Quot.sound, propext
CrowdDynamics.C71_negated_gradient_partial: Classical.choice, Quot.sound, propext
CrowdDynamics.C71_gradient_sign_fails: Classical.choice, Quot.sound, propext
CrowdDynamics.C72_torso_contact_gradient_partial: Classical.choice, Quot.sound, propext
CrowdDynamics.C72_shoulder_contact_gradient_fails: Classical.choice, Quot.sound, propext
CrowdDynamics.C73_uniform: Classical.choice, Quot.sound, propext
CrowdDynamics.C74_head_on_fails: Classical.choice, Quot.sound, propext
CrowdDynamics.C74_oblique_partial: Classical.choice, Quot.sound, propext
CrowdDynamics.C75_hull_partial: Classical.choice, Quot.sound, propext
CrowdDynamics.C75_convex_partial: Classical.choice, Quot.sound, propext
CrowdDynamics.C75_no_obstacles_partial: Classical.choice, Quot.sound, propext
CrowdDynamics.C75_fails: Classical.choice, Quot.sound, propext
CrowdDynamics.C76_unit: Classical.choice, Quot.sound, propext
CrowdDynamics.C76_affine: Classical.choice, Quot.sound, propext
CrowdDynamics.C76_defined_partial: Classical.choice, Quot.sound, propext
CrowdDynamics.C76_corridor_fails: Classical.choice, Quot.sound, propext
CrowdDynamics.C77_obstacles_partial: Classical.choice, Quot.sound, propext
CrowdDynamics.C77_no_obstacles_error: Classical.choice, Quot.sound, propext
CrowdDynamics.C77_fails: Classical.choice, Quot.sound, propext
CrowdDynamics.C78_inject_before_fails: Classical.choice, Quot.sound, propext
CrowdDynamics.C78_inject_after_partial: Classical.choice, Quot.sound, propext
CrowdDynamics.C78_inject_before_partial: Classical.choice, Quot.sound, propext
CrowdDynamics.C79_getitem: Classical.choice, Quot.sound, propext
CrowdDynamics.C80_roles: Classical.choice, Quot.sound, propext
CrowdDynamics.C81_references: Classical.choice, Quot.sound, propext
CrowdDynamics.C82_never: Classical.choice, Quot.sound, propext
CrowdDynamics.C82_fails: Classical.choice, Quot.sound, propext
CrowdDynamics.C82_first_partial: Classical.choice, Quot.sound, propext
CrowdDynamics.C83_roundtrip: Classical.choice, Quot.sound, propext
CrowdDynamics.C84_no_braces_partial: Classical.choice, Quot.sound, propext
CrowdDynamics.C84_fails: Classical.choice, Quot.sound, propext
CrowdDynamics.C84_wrong_directory: Classical.choice, Quot.sound, propext
CrowdDynamics.C85_regions: Classical.choice, Quot.sound, propext
CrowdDynamics.C85_far_point: Classical.choice, Quot.sound, propext
CrowdDynamics.C86_cwd_partial: Classical.choice, Quot.sound, propext
CrowdDynamics.C86_other_directory_fails: Classical.choice, Quot.sound, propext
CrowdDynamics.C86_fails: Classical.choice, Quot.sound, propext
CrowdDynamics.C87_order_partial: propext
CrowdDynamics.C87_fails: Quot.sound, propext
CrowdDynamics.C88_once_partial: Classical.choice, Quot.sound, propext
CrowdDynamics.C88_fails: propext
CrowdDynamics.C89_fields_partial: Classical.choice, Quot.sound, propext
CrowdDynamics.C89_order_partial: Classical.choice, Quot.sound, propext
CrowdDynamics.C89_agents: Classical.choice, Quot.sound, propext
CrowdDynamics.C89_excluded: Classical.choice, Quot.sound, propext
CrowdDynamics.C89_indices: Classical.choice, Quot.sound, propext
CrowdDynamics.C89_fails: Classical.choice, Quot.sound, propext
CrowdDynamics.C90_accepts: Classical.choice, Quot.sound, propext
CrowdDynamics.C90_invariant: Classical.choice, Quot.sound, propext
CrowdDynamics.C90_validators: Classical.choice, Quot.sound, propext
CrowdDynamics.C91_agrees_partial: Classical.choice, Quot.sound, propext
CrowdDynamics.C91_float_fails: Classical.choice, Quot.sound, propext
CrowdDynamics.C91_enum_fails: Classical.choice, Quot.sound, propext
CrowdDynamics.C91_fails: Classical.choice, Quot.sound, propext
CrowdDynamics.C91_tuple: Classical.choice, Quot.sound, propext
CrowdDynamics.C92_partial: Quot.sound, propext
CrowdDynamics.C92_fails: Quot.sound, propext
CrowdDynamics.C93_partial: propext
CrowdDynamics.C93_fails: propext
CrowdDynamics.C94_tree: Classical.choice, Quot.sound, propext
CrowdDynamics.C94_chain: Classical.choice, Quot.sound, propext
CrowdDynamics.C94_counters: Classical.choice, Quot.sound, propext
CrowdDynamics.C95_partial: Classical.choice, Quot.sound, propext
CrowdDynamics.C95_fails: Classical.choice, Quot.sound, propext
CrowdDynamics.C96_partial: Classical.choice, Quot.sound, propext
CrowdDynamics.C96_fails: Classical.choice, Quot.sound, propext
CrowdDynamics.C97_coasting: Classical.choice, Quot.sound, propext
CrowdDynamics.C97_fails: Classical.choice, Quot.sound, propext
CrowdDynamics.C98_partial: Classical.choice, Quot.sound, propext
CrowdDynamics.C98_fails: Classical.choice, Quot.sound, propext
CrowdDynamics.C98_run_partial: Classical.choice, Quot.sound, propext
CrowdDynamics.C98_herding_partial: Classical.choice, Quot.sound, propext
CrowdDynamics.C99_partial: Classical.choice, Quot.sound, propext
CrowdDynamics.C99_fails: Classical.choice, Quot.sound, propext
CrowdDynamics.C100_partial: Classical.choice, Quot.sound, propext
CrowdDynamics.C100_fails: Classical.choice, Quot.sound, propext
CrowdDynamics.C100_pillar_fails: Classical.choice, Quot.sound, propext
CrowdDynamics.C101_partial: Classical.choice, Quot.sound, propext
CrowdDynamics.C101_fails: Classical.choice, Quot.sound, propext
CrowdDynamics.C102_leaders: Classical.choice, Quot.sound, propext
CrowdDynamics.C103_references: Classical.choice, Quot.sound, propext
CrowdDynamics.C103_roles: Classical.choice, Quot.sound, propext
CrowdDynamics.C104_partial: Classical.choice, Quot.sound, propext
CrowdDynamics.C104_fails: Classical.choice, Quot.sound, propext
CrowdDynamics.C105_heading: Classical.choice, Quot.sound, propext
CrowdDynamics.C105_room: Classical.choice, Quot.sound, propext
CrowdDynamics.C106_partial: Classical.choice, Quot.sound, propext
CrowdDynamics.C106_fails: Classical.choice, Quot.sound, propext
CrowdDynamics.C107_partial: Classical.choice, Quot.sound, propext
CrowdDynamics.C107_extremes: Classical.choice, Quot.sound, propext
CrowdDynamics.C107_fails: Classical.choice, Quot.sound, propext
CrowdDynamics.C108_partial: Classical.choice, Quot.sound, propext
CrowdDynamics.C108_fails: Classical.choice, Quot.sound, propext
CrowdDynamics.C109_partial: Classical.choice, Quot.sound, propext
CrowdDynamics.C109_fails: Classical.choice, Quot.sound, propext
CrowdDynamics.C110_pair_forces: Classical.choice, Quot.sound, propext
CrowdDynamics.C111_field_walls: Classical.choice, Quot.sound, propext
CrowdDynamics.C112_newton: Classical.choice, Quot.sound, propext
CrowdDynamics.C113_shipped_newton: Classical.choice, Quot.sound, propext
CrowdDynamics.C114_number: Classical.choice, Quot.sound, propext
CrowdDynamics.C114_closest: Classical.choice, Quot.sound, propext
CrowdDynamics.C114_refused: Classical.choice, Quot.sound, propext
CrowdDynamics.C115_segments: Classical.choice, Quot.sound, propext
CrowdDynamics.C115_draw: Classical.choice, Quot.sound, propext
CrowdDynamics.C115_array: Classical.choice, Quot.sound, propext
CrowdDynamics.C115_storage: Quot.sound, propext
CrowdDynamics.C115_concatenate: Classical.choice, Quot.sound, propext
CrowdDynamics.C115_dictionary: Quot.sound, propext
CrowdDynamics.C116_map: Classical.choice, Quot.sound, propext
CrowdDynamics.C117_ranges: Classical.choice, Quot.sound, propext
CrowdDynamics.C117_refused: Classical.choice, Quot.sound, propext
CrowdDynamics.C117_body_type: Classical.choice, Quot.sound, propext
CrowdDynamics.C118_tests: Classical.choice, Quot.sound, propext
CrowdDynamics.C118_all_placed: Classical.choice, Quot.sound, propext
CrowdDynamics.C118_rejected: Classical.choice, Quot.sound, propext
CrowdDynamics.C119_node: Classical.choice, Quot.sound, propext
CrowdDynamics.C119_failure: Classical.choice, Quot.sound, propext
CrowdDynamics.C120_partial: Classical.choice, Quot.sound, propext
CrowdDynamics.C120_room_partial: Classical.choice, Quot.sound, propext
CrowdDynamics.C120_fails: Classical.choice, Quot.sound, propext
CrowdDynamics.C121_partial: Classical.choice, Quot.sound, propext
CrowdDynamics.C121_every_update_partial: Classical.choice, Quot.sound, propext
CrowdDynamics.C121_geometry_partial: Classical.choice, Quot.sound, propext
CrowdDynamics.C121_geometry_error: Classical.choice, Quot.sound, propext
CrowdDynamics.C121_crash: Classical.choice, Quot.sound, propext
CrowdDynamics.C121_fails: Classical.choice, Quot.sound, propext
CrowdDynamics.C121_directory: propext
CrowdDynamics.C122_pair_effects_partial: Classical.choice, Quot.sound, propext
CrowdDynamics.C122_fails: Classical.choice, Quot.sound, propext
CrowdDynamics.C123_newton_partial: Classical.choice, Quot.sound, propext
CrowdDynamics.C123_fails: Classical.choice, Quot.sound, propext
CrowdDynamics.C123_shipped_newton_partial: Classical.choice, Quot.sound, propext
CrowdDynamics.C124_ranges_partial: Classical.choice, Quot.sound, propext
CrowdDynamics.C124_fails: Classical.choice, Quot.sound, propext
CrowdDynamics.C124_empty: Classical.choice, Quot.sound, propext
CrowdDynamics.C125_drawn_partial: Classical.choice, Quot.sound, propext
CrowdDynamics.C125_refused: Classical.choice, Quot.sound, propext
CrowdDynamics.C125_fails: Classical.choice, Quot.sound, propext
CrowdDynamics.C126_add_field_partial: Classical.choice, Quot.sound, propext
CrowdDynamics.C126_add_field_refused: Classical.choice, Quot.sound, propext
CrowdDynamics.C126_fails: Classical.choice, Quot.sound, propext
CrowdDynamics.C126_plot_refused: Classical.choice, Quot.sound, propext
CrowdDynamics.C126_plot: Classical.choice, Quot.sound, propext
CrowdDynamics.C127_distance_partial: Classical.choice, Quot.sound, propext
CrowdDynamics.C127_fails: Classical.choice, Quot.sound, propext
CrowdDynamics.C127_arrows: Classical.choice, Quot.sound, propext
CrowdDynamics.C128_figure: Classical.choice, Quot.sound, propext
CrowdDynamics.C128_render: Classical.choice, Quot.sound, propext
CrowdDynamics.C129_invariant: Classical.choice, Quot.sound, propext
CrowdDynamics.C129_assign: Classical.choice, Quot.sound, propext
CrowdDynamics.C130_speed_limit: Classical.choice, Quot.sound, propext
CrowdDynamics.C130_alone: Classical.choice, Quot.sound, propext
CrowdDynamics.C131_relaxes: Classical.choice, Quot.sound, propext
CrowdDynamics.C132_no_jump_partial: Classical.choice, Quot.sound, propext
CrowdDynamics.C132_fails: Classical.choice, Quot.sound, propext
CrowdDynamics.C133_viewpoint: Classical.choice, Quot.sound, propext
CrowdDynamics.C133_run: Classical.choice, Quot.sound, propext
CrowdDynamics.C133_symmetry: Classical.choice, Quot.sound, propext
CrowdDynamics.C134_checkout: Classical.choice, Quot.sound, propext
CrowdDynamics.C134_checkout_root: Classical.choice, Quot.sound, propext
CrowdDynamics.C135_fails: Classical.choice, Quot.sound, propext
CrowdDynamics.C135_identifies_partial: Classical.choice, Quot.sound, propext
CrowdDynamics.C136_fails: Classical.choice, Quot.sound, propext
CrowdDynamics.C136_checkout_partial: Classical.choice, Quot.sound, propext
CrowdDynamics.C136_directory_partial: Classical.choice, Quot.sound, propext
CrowdDynamics.C137_fails: Classical.choice, Quot.sound, propext
CrowdDynamics.C137_tags_partial: Classical.choice, Quot.sound, propext
CrowdDynamics.C137_untagged_partial: Classical.choice, Quot.sound, propext
CrowdDynamics.C138_fails: Classical.choice, Quot.sound, propext
CrowdDynamics.C138_no_exception_partial: Classical.choice, Quot.sound, propext
CrowdDynamics.C138_error_report_partial: Classical.choice, Quot.sound, propext
CrowdDynamics.C138_return_code_partial: propext
CrowdDynamics.C139_fails: Classical.choice, Quot.sound, propext
CrowdDynamics.C139_describe_partial: Classical.choice, Quot.sound, propext
CrowdDynamics.C140_start: Classical.choice, Quot.sound, propext
CrowdDynamics.C140_walk: Classical.choice, Quot.sound, propext
CrowdDynamics.C141_start: Classical.choice, Quot.sound, propext
CrowdDynamics.C141_symmetric: Classical.choice, Quot.sound, propext
CrowdDynamics.C142_destinations_partial: Classical.choice, Quot.sound, propext
CrowdDynamics.C142_fails: Classical.choice, Quot.sound, propext
CrowdDynamics.C142_user_info_partial: Classical.choice, Quot.sound, propext
CrowdDynamics.C143_level_partial: Classical.choice, Quot.sound, propext
CrowdDynamics.C143_fails: Classical.choice, Quot.sound, propext
CrowdDynamics.C144_choices_partial: Classical.choice, Quot.sound, propext
CrowdDynamics.C144_fails: Classical.choice, Quot.sound, propext
CrowdDynamics.C145_script_partial: 
CrowdDynamics.C145_module_partial: propext
CrowdDynamics.C145_fails: Classical.choice, Quot.sound, propext
CrowdDynamics.C146_outdoor: Classical.choice, Quot.sound, propext
CrowdDynamics.C146_led: Classical.choice, Quot.sound, propext
CrowdDynamics.C147_progress: Classical.choice, Quot.sound, propext
CrowdDynamics.C147_alone: Classical.choice, Quot.sound, propext
CrowdDynamics.C147_leaves: Classical.choice, Quot.sound, propext
CrowdDynamics.C148_time_limit: Classical.choice, Quot.sound, propext
CrowdDynamics.C148_shipped: Classical.choice, Quot.sound, propext
CrowdDynamics.C148_iterations: Classical.choice, Quot.sound, propext
CrowdDynamics.C149_determined: Classical.choice, Quot.sound, propext
CrowdDynamics.C149_opposite: Classical.choice, Quot.sound, propext
CrowdDynamics.C149_momentum: Classical.choice, Quot.sound, propext
CrowdDynamics.C150_styles_partial: Classical.choice, Quot.sound, propext
CrowdDynamics.C150_post_partial: Classical.choice, Quot.sound, propext
CrowdDynamics.C150_fails: Classical.choice, Quot.sound, propext
CrowdDynamics.C150_choice_partial: Classical.choice, Quot.sound, propext
CrowdDynamics.C151_group: Classical.choice, Quot.sound, propext
CrowdDynamics.C151_horizon: Classical.choice, Quot.sound, propext
CrowdDynamics.C152_table_partial: Classical.choice, Quot.sound, propext
CrowdDynamics.C152_agents_partial: Classical.choice, Quot.sound, propext
CrowdDynamics.C152_names_partial: Classical.choice, Quot.sound, propext
CrowdDynamics.C152_fails: Classical.choice, Quot.sound, propext
CrowdDynamics.C153_docstring_partial: Classical.choice, Quot.sound, propext
CrowdDynamics.C153_agents_partial: Classical.choice, Quot.sound, propext
CrowdDynamics.C153_fails: Classical.choice, Quot.sound, propext
CrowdDynamics.C153_undocumented_partial: Classical.choice, Quot.sound, propext
CrowdDynamics.C154_search: Quot.sound, propext
CrowdDynamics.C154_read: Classical.choice, Quot.sound, propext
CrowdDynamics.C154_shipped: Classical.choice, Quot.sound, propext
CrowdDynamics.C154_missing: Classical.choice, Quot.sound, propext
CrowdDynamics.C155_triangle: Classical.choice, Quot.sound, propext
CrowdDynamics.C155_uniform: Classical.choice, Quot.sound, propext
CrowdDynamics.C156_isotropic: Classical.choice, Quot.sound, propext
CrowdDynamics.C156_mean: Classical.choice, Quot.sound, propext
CrowdDynamics.C156_random_vector: Classical.choice, Quot.sound, propext
CrowdDynamics.C156_torque: Classical.choice, Quot.sound, propext
CrowdDynamics.C157_count: Classical.choice, Quot.sound, propext
CrowdDynamics.C157_ends: Classical.choice, Quot.sound, propext
CrowdDynamics.C157_timings_end: Classical.choice, Quot.sound, propext
CrowdDynamics.C157_timings: Classical.choice, Quot.sound, propext
CrowdDynamics.C158_euler: Classical.choice, Quot.sound, propext
CrowdDynamics.C158_verlet: Classical.choice, Quot.sound, propext
CrowdDynamics.C159_first_order_partial: Classical.choice, Quot.sound, propext
CrowdDynamics.C159_constant_error: Classical.choice, Quot.sound, propext
CrowdDynamics.C159_fails: Classical.choice, Quot.sound, propext
CrowdDynamics.C160_circular_partial: Classical.choice, Quot.sound, propext
CrowdDynamics.C160_parts_ahead_partial: Classical.choice, Quot.sound, propext
CrowdDynamics.C160_slows_approach_fails: Classical.choice, Quot.sound, propext
CrowdDynamics.C161_not_colliding_partial: Classical.choice, Quot.sound, propext
CrowdDynamics.C161_colliding_keywords_partial: Classical.choice, Quot.sound, propext
CrowdDynamics.C161_colliding_fails: Classical.choice, Quot.sound, propext
CrowdDynamics.C162_range: Classical.choice, Quot.sound, propext
CrowdDynamics.C162_congruent: Classical.choice, Quot.sound, propext
CrowdDynamics.C162_idempotent: Classical.choice, Quot.sound, propext
CrowdDynamics.C162_ends: Classical.choice, Quot.sound, propext
CrowdDynamics.C162_exact: Classical.choice, Quot.sound, propext
CrowdDynamics.C162_rounding: Classical.choice, Quot.sound, propext
CrowdDynamics.C163_unchanged_fails: Classical.choice, Quot.sound, propext
CrowdDynamics.C163_unchanged_partial: Classical.choice, Quot.sound, propext
CrowdDynamics.C164_same_key: Classical.choice, Quot.sound, propext
CrowdDynamics.C164_searched_keys: Classical.choice, Quot.sound, propext
CrowdDynamics.C164_complete: Classical.choice, Quot.sound, propext
CrowdDynamics.C164_floor_division: Classical.choice, Quot.sound, propext
CrowdDynamics.C165_decimal_fails: Classical.choice, Quot.sound, propext
CrowdDynamics.C165_decimal_partial: Classical.choice, Quot.sound, propext
CrowdDynamics.C166_opposite: Classical.choice, Quot.sound, propext
CrowdDynamics.C166_order: Classical.choice, Quot.sound, propext
CrowdDynamics.C166_interaction: Classical.choice, Quot.sound, propext
CrowdDynamics.C166_exact: Classical.choice, Quot.sound, propext
CrowdDynamics.C167_total_fails: Classical.choice, Quot.sound, propext
CrowdDynamics.C167_total_partial: Classical.choice, Quot.sound, propext
CrowdDynamics.C167_single_partial: Classical.choice, Quot.sound, propext
CrowdDynamics.C168_intersect_fails: Classical.choice, Quot.sound, propext
CrowdDynamics.C168_intersect_partial: Classical.choice, Quot.sound, propext
CrowdDynamics.C168_parallel_partial: Classical.choice, Quot.sound, propext
CrowdDynamics.C168_exact: Classical.choice, Quot.sound, propext
CrowdDynamics.C169_times: Classical.choice, Quot.sound, propext
CrowdDynamics.C169_near: Classical.choice, Quot.sound, propext
CrowdDynamics.C169_exact: Classical.choice, Quot.sound, propext
CrowdDynamics.C169_ends_fails: Classical.choice, Quot.sound, propext
CrowdDynamics.C169_ends_partial: Classical.choice, Quot.sound, propext
CrowdDynamics.C170_test_wrap_to_pi_fails: Classical.choice, Quot.sound, propext
CrowdDynamics.C170_range_partial: Classical.choice, Quot.sound, propext
CrowdDynamics.C170_test_wrap_to_pi_partial: Classical.choice, Quot.sound, propext
CrowdDynamics.C170_exact_partial: Classical.choice, Quot.sound, propext
CrowdDynamics.C171_test_length: Classical.choice, Quot.sound, propext
CrowdDynamics.C171_test_length_detects: Classical.choice, Quot.sound, propext
CrowdDynamics.C171_test_normalize: Classical.choice, Quot.sound, propext
CrowdDynamics.C171_test_truncate: Classical.choice, Quot.sound, propext
CrowdDynamics.C171_test_distance_circle_circle: Classical.choice, Quot.sound, propext
CrowdDynamics.C171_test_narrow_exit_capacity: Classical.choice, Quot.sound, propext
CrowdDynamics.C171_truncate_length: Classical.choice, Quot.sound, propext
CrowdDynamics.C172_test_mutable_block_list: Classical.choice, Quot.sound, propext
CrowdDynamics.C172_keys: Classical.choice, Quot.sound, propext
CrowdDynamics.C173_test_line_intersect_fails: Classical.choice, Quot.sound, propext
CrowdDynamics.C173_test_line_intersect_partial: Classical.choice, Quot.sound, propext
CrowdDynamics.C174_test_poisson_clock_fails: Classical.choice, Quot.sound, propext
CrowdDynamics.C174_test_poisson_clock_partial: Classical.choice, Quot.sound, propext
CrowdDynamics.C174_exact_partial: Classical.choice, Quot.sound, propext
CrowdDynamics.C174_test_poisson_timings: Classical.choice, Quot.sound, propext
CrowdDynamics.C175_test_adaptive_timestep: Classical.choice, Quot.sound, propext
CrowdDynamics.C175_step_bounds: Classical.choice, Quot.sound, propext
CrowdDynamics.C175_test_integrators: Classical.choice, Quot.sound, propext
CrowdDynamics.C175_exact: Classical.choice, Quot.sound, propext
CrowdDynamics.C176_test_linestring_sample: Classical.choice, Quot.sound, propext
CrowdDynamics.C176_test_triangle_area_cumsum: Classical.choice, Quot.sound, propext
CrowdDynamics.C176_test_random_sample_triangle: Classical.choice, Quot.sound, propext
CrowdDynamics.C176_test_polygon_sampling_fails: Classical.choice, Quot.sound, propext
CrowdDynamics.C176_test_polygon_sampling_partial: Classical.choice, Quot.sound, propext
CrowdDynamics.C177_run_length_fails: Classical.choice, Quot.sound, propext
CrowdDynamics.C177_time_partial: Classical.choice, Quot.sound, propext
CrowdDynamics.C177_run_length_partial: Classical.choice, Quot.sound, propext
CrowdDynamics.C177_time_grows: Classical.choice, Quot.sound, propext
CrowdDynamics.C177_constant_step: Classical.choice, Quot.sound, propext
CrowdDynamics.C178_grid_fails: Classical.choice, Quot.sound, propext
CrowdDynamics.C178_shape_partial: Classical.choice, Quot.sound, propext
CrowdDynamics.C178_valid: Classical.choice, Quot.sound, propext
CrowdDynamics.C178_index_partial: Classical.choice, Quot.sound, propext
CrowdDynamics.C178_exact: Classical.choice, Quot.sound, propext
CrowdDynamics.C179_motion_fails: Classical.choice, Quot.sound, propext
CrowdDynamics.C179_euler_partial: Classical.choice, Quot.sound, propext
CrowdDynamics.C179_verlet_partial: Classical.choice, Quot.sound, propext
CrowdDynamics.C179_free: Classical.choice, Quot.sound, propext
CrowdDynamics.C179_drift_partial: Classical.choice, Quot.sound, propext
CrowdDynamics.C179_orientation: Classical.choice, Quot.sound, propext
CrowdDynamics.C179_rotation_partial: Classical.choice, Quot.sound, propext
CrowdDynamics.C179_rotation_verlet_partial: Classical.choice, Quot.sound, propext
CrowdDynamics.C179_exact: Classical.choice, Quot.sound, propext
CrowdDynamics.C180_contact_fails: Classical.choice, Quot.sound, propext
CrowdDynamics.C180_distance_partial: Classical.choice, Quot.sound, propext
CrowdDynamics.C180_apart: Classical.choice, Quot.sound, propext
CrowdDynamics.C180_overlap: Classical.choice, Quot.sound, propext
CrowdDynamics.C180_placed: Classical.choice, Quot.sound, propext
CrowdDynamics.C180_refused: Classical.choice, Quot.sound, propext
CrowdDynamics.C180_three_partial: Classical.choice, Quot.sound, propext
CrowdDynamics.C180_three_placed: Classical.choice, Quot.sound, propext
CrowdDynamics.C180_exact: Classical.choice, Quot.sound, propext
CrowdDynamics.C180_example_overlap: Classical.choice, Quot.sound, propext
CrowdDynamics.C181_nan_fails: Classical.choice, Quot.sound, propext
CrowdDynamics.C181_distance_partial: Classical.choice, Quot.sound, propext
CrowdDynamics.C181_placed: Classical.choice, Quot.sound, propext
CrowdDynamics.C181_refused: Classical.choice, Quot.sound, propext
CrowdDynamics.C181_exact: Classical.choice, Quot.sound, propext
CrowdDynamics.C182_coincident: Classical.choice, Quot.sound, propext
CrowdDynamics.C182_unchanged: Classical.choice, Quot.sound, propext
CrowdDynamics.C182_tests_fails: Classical.choice, Quot.sound, propext
CrowdDynamics.C182_walls_partial: Classical.choice, Quot.sound, propext
CrowdDynamics.C182_walls_seen_partial: Classical.choice, Quot.sound, propext
CrowdDynamics.C183_relative_error_fails: Classical.choice, Quot.sound, propext
CrowdDynamics.C183_absolute_error_partial: Classical.choice, Quot.sound, propext
CrowdDynamics.C183_exact_on_grid_partial: Classical.choice, Quot.sound, propext
CrowdDynamics.C183_test_partial: Classical.choice, Quot.sound, propext
CrowdDynamics.C184_nan_fails: Classical.choice, Quot.sound, propext
CrowdDynamics.C184_zero_division_fails: Classical.choice, Quot.sound, propext
CrowdDynamics.C184_finite_partial: Classical.choice, Quot.sound, propext
CrowdDynamics.C184_length_partial: Classical.choice, Quot.sound, propext
CrowdDynamics.C185_small_dtype_fails: Classical.choice, Quot.sound, propext
CrowdDynamics.C185_arrays_partial: Classical.choice, Quot.sound, propext
CrowdDynamics.C185_stored_partial: Classical.choice, Quot.sound, propext
CrowdDynamics.C185_bounds: Classical.choice, Quot.sound, propext
CrowdDynamics.C185_reals: Classical.choice, Quot.sound, propext
CrowdDynamics.C185_test_unit_vectors: Classical.choice, Quot.sound, propext
CrowdDynamics.C185_points: Classical.choice, Quot.sound, propext
CrowdDynamics.C185_linestrings: Classical.choice, Quot.sound, propext
CrowdDynamics.C185_polygons: Classical.choice, Quot.sound, propext
CrowdDynamics.C186_order: Classical.choice, Quot.sound, propext
CrowdDynamics.C186_unique: Classical.choice, Quot.sound, propext
CrowdDynamics.C186_metadata: Classical.choice, Quot.sound, propext
CrowdDynamics.C187_stall_fails: Classical.choice, Quot.sound, propext
CrowdDynamics.C187_converges_partial: Classical.choice, Quot.sound, propext
CrowdDynamics.C187_limit_partial: Classical.choice, Quot.sound, propext
CrowdDynamics.C187_steady: Classical.choice, Quot.sound, propext
CrowdDynamics.C188_body_types: Classical.choice, Quot.sound, propext
CrowdDynamics.C188_stays: Classical.choice, Quot.sound, propext
CrowdDynamics.C188_fails: Classical.choice, Quot.sound, propext
CrowdDynamics.C188_turns_partial: Classical.choice, Quot.sound, propext
CrowdDynamics.C188_limit_partial: Classical.choice, Quot.sound, propext
CrowdDynamics.C189_speed: Classical.choice, Quot.sound, propext
CrowdDynamics.C189_spin: Classical.choice, Quot.sound, propext
CrowdDynamics.C189_alone: Classical.choice, Quot.sound, propext
CrowdDynamics.C189_relaxes: Classical.choice, Quot.sound, propext
CrowdDynamics.C190_numbers_fails: Classical.choice, Quot.sound, propext
CrowdDynamics.C190_turn_fails: Classical.choice, Quot.sound, propext
CrowdDynamics.C190_fails: Classical.choice, Quot.sound, propext
CrowdDynamics.C190_moved_partial: Classical.choice, Quot.sound, propext
CrowdDynamics.C190_moved_run_partial: Classical.choice, Quot.sound, propext
CrowdDynamics.C190_turned_partial: Classical.choice, Quot.sound, propext
CrowdDynamics.C190_turned_run_partial: Classical.choice, Quot.sound, propext
CrowdDynamics.C191_fails: Classical.choice, Quot.sound, propext
CrowdDynamics.C191_group_partial: Classical.choice, Quot.sound, propext
CrowdDynamics.C191_single_partial: Classical.choice, Quot.sound, propext
CrowdDynamics.C191_horizon_partial: Classical.choice, Quot.sound, propext
CrowdDynamics.C192_fails: Classical.choice, Quot.sound, propext
CrowdDynamics.C192_no_jump_partial: Classical.choice, Quot.sound, propext
CrowdDynamics.C193_leader: Classical.choice, Quot.sound, propext
CrowdDynamics.C193_leader_same: Classical.choice, Quot.sound, propext
CrowdDynamics.C193_herd: Classical.choice, Quot.sound, propext
CrowdDynamics.C193_herd_same: Classical.choice, Quot.sound, propext
CrowdDynamics.C194_progress: Classical.choice, Quot.sound, propext
CrowdDynamics.C194_alone: Classical.choice, Quot.sound, propext
CrowdDynamics.C194_leaves: Classical.choice, Quot.sound, propext
CrowdDynamics.C195_momentum: Classical.choice, Quot.sound, propext
CrowdDynamics.C196_movement_partial: Classical.choice, Quot.sound, propext
CrowdDynamics.C196_ends_partial: Classical.choice, Quot.sound, propext
CrowdDynamics.C196_standoff: Classical.choice, Quot.sound, propext
CrowdDynamics.C196_interaction_fails: Classical.choice, Quot.sound, propext
CrowdDynamics.C196_fails: Classical.choice, Quot.sound, propext
CrowdDynamics.C197_no_swap_partial: Classical.choice, Quot.sound, propext
CrowdDynamics.C197_untouched_partial: Classical.choice, Quot.sound, propext
CrowdDynamics.C197_fails: Classical.choice, Quot.sound, propext
CrowdDynamics.C198_agents_partial: Classical.choice, Quot.sound, propext
CrowdDynamics.C198_walls_partial: Classical.choice, Quot.sound, propext
CrowdDynamics.C198_body_walls_partial: Classical.choice, Quot.sound, propext
CrowdDynamics.C198_pulled_together_fails: Classical.choice, Quot.sound, propext
CrowdDynamics.C198_fails: Classical.choice, Quot.sound, propext
CrowdDynamics.C199_free_partial: Classical.choice, Quot.sound, propext
CrowdDynamics.C199_fails: Classical.choice, Quot.sound, propext
CrowdDynamics.C200_first_contact_partial: Classical.choice, Quot.sound, propext
CrowdDynamics.C200_fails: Classical.choice, Quot.sound, propext
CrowdDynamics.C201_no_swap_partial: Classical.choice, Quot.sound, propext
CrowdDynamics.C201_untouched_partial: Classical.choice, Quot.sound, propext
CrowdDynamics.C201_fails: Classical.choice, Quot.sound, propext
CrowdDynamics.C202_stopped: Classical.choice, Quot.sound, propext
CrowdDynamics.C202_shipped: Classical.choice, Quot.sound, propext
CrowdDynamics.C203_wall_fails: Classical.choice, Quot.sound, propext
CrowdDynamics.C203_pair_fails: Classical.choice, Quot.sound, propext
CrowdDynamics.C203_finite_partial: Classical.choice, Quot.sound, propext
CrowdDynamics.C204_timestep: Classical.choice, Quot.sound, propext
CrowdDynamics.C204_finite: Classical.choice, Quot.sound, propext
CrowdDynamics.C204_refines: Classical.choice, Quot.sound, propext
CrowdDynamics.C204_lost: Classical.choice, Quot.sound, propext
CrowdDynamics.C204_others: Classical.choice, Quot.sound, propext
CrowdDynamics.C205_no_force: Classical.choice, Quot.sound, propext
CrowdDynamics.C205_pairs: Classical.choice, Quot.sound, propext
CrowdDynamics.C205_removed: Classical.choice, Quot.sound, propext
CrowdDynamics.C205_finite: Classical.choice, Quot.sound, propext
CrowdDynamics.C206_update: Classical.choice, Quot.sound, propext
CrowdDynamics.C206_beside_lost: Classical.choice, Quot.sound, propext
CrowdDynamics.C207_rattles_partial: Classical.choice, Quot.sound, propext
CrowdDynamics.C207_fails: Classical.choice, Quot.sound, propext
CrowdDynamics.C208_stopped: Classical.choice, Quot.sound, propext
CrowdDynamics.C208_returns: Classical.choice, Quot.sound, propext
CrowdDynamics.C208_finite: Classical.choice, Quot.sound, propext
CrowdDynamics.C209_symmetry: Classical.choice, Quot.sound, propext
CrowdDynamics.C209_overflow: Classical.choice, Quot.sound, propext
CrowdDynamics.C209_walls: Classical.choice, Quot.sound, propext
CrowdDynamics.C210_mirror: Classical.choice, Quot.sound, propext
CrowdDynamics.C210_no_drift: Classical.choice, Quot.sound, propext
CrowdDynamics.C211_fails: Classical.choice, Quot.sound, propext
CrowdDynamics.C211_order_partial: Classical.choice, Quot.sound, propext
CrowdDynamics.C211_single_partial: Classical.choice, Quot.sound, propext
CrowdDynamics.C212_numbering: Classical.choice, Quot.sound, propext
CrowdDynamics.C213_pair: Classical.choice, Quot.sound, propext
CrowdDynamics.C213_run: Classical.choice, Quot.sound, propext
CrowdDynamics.C213_numbering: Classical.choice, Quot.sound, propext
CrowdDynamics.C214_partners: Classical.choice, Quot.sound, propext
CrowdDynamics.C214_symmetric: Classical.choice, Quot.sound, propext
CrowdDynamics.C214_single_file: Classical.choice, Quot.sound, propext
CrowdDynamics.C215_no_force: Classical.choice, Quot.sound, propext
CrowdDynamics.C215_run: Classical.choice, Quot.sound, propext
CrowdDynamics.C215_removed: Classical.choice, Quot.sound, propext
CrowdDynamics.C215_normal: Classical.choice, Quot.sound, propext
