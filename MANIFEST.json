{
 "claims": [
  {
   "property": "C01",
   "status": "proved",
   "theorems": [
    "CrowdDynamics.C01_wrap_range",
    "CrowdDynamics.C01_wrap_congruent",
    "CrowdDynamics.C01_wrap_odd_multiples",
    "CrowdDynamics.C01_wrap_fixes_range",
    "CrowdDynamics.C01_wrap_idempotent",
    "CrowdDynamics.C01_wrap_neg"
   ],
   "note": ""
  },
  {
   "property": "C02",
   "status": "proved",
   "theorems": [
    "CrowdDynamics.C02_rotate_inverse",
    "CrowdDynamics.C02_rotate_isometry",
    "CrowdDynamics.C02_length_dot_cross",
    "CrowdDynamics.C02_normalize_unit",
    "CrowdDynamics.C02_normalize_zero",
    "CrowdDynamics.C02_truncate_short",
    "CrowdDynamics.C02_truncate_long"
   ],
   "note": ""
  },
  {
   "property": "C03",
   "status": "proved",
   "theorems": [
    "CrowdDynamics.C03_unit_vector_length",
    "CrowdDynamics.C03_angle_range",
    "CrowdDynamics.C03_angle_unit_vector",
    "CrowdDynamics.C03_unit_vector_angle"
   ],
   "note": ""
  },
  {
   "property": "C04",
   "status": "partial",
   "theorems": [
    "CrowdDynamics.C04_weighted_average_unit_fails",
    "CrowdDynamics.C04_weighted_average_partial"
   ],
   "note": "The code does not normalise (C04_weighted_average_unit_fails); proved: the result is the convex combination, of length at most 1."
  },
  {
   "property": "C05",
   "status": "proved",
   "theorems": [
    "CrowdDynamics.C05_polygon_area_shoelace",
    "CrowdDynamics.C05_polygon_area_nonneg",
    "CrowdDynamics.C05_polygon_area_triangle",
    "CrowdDynamics.C05_polygon_area_affine",
    "CrowdDynamics.C05_polygon_area_rotate",
    "CrowdDynamics.C05_polygon_area_reverse",
    "CrowdDynamics.C05_polygon_area_cut"
   ],
   "note": ""
  },
  {
   "property": "C06",
   "status": "partial",
   "theorems": [
    "CrowdDynamics.C06_line_intersect_sound",
    "CrowdDynamics.C06_line_intersect_exact_partial",
    "CrowdDynamics.C06_line_intersect_parallel",
    "CrowdDynamics.C06_line_intersect_collinear_fails",
    "CrowdDynamics.C06_line_intersect_symm"
   ],
   "note": "Exact for non-parallel segments; false for collinear overlapping segments (C06_line_intersect_collinear_fails)."
  },
  {
   "property": "C07",
   "status": "proved",
   "theorems": [
    "CrowdDynamics.C07_obstacle_between_iff",
    "CrowdDynamics.C07_obstacle_between_symm",
    "CrowdDynamics.C07_obstacle_between_mono",
    "CrowdDynamics.C07_obstacle_between_trivial"
   ],
   "note": ""
  },
  {
   "property": "C08",
   "status": "proved",
   "theorems": [
    "CrowdDynamics.C08_circles_distance",
    "CrowdDynamics.C08_circles_overlap_iff",
    "CrowdDynamics.C08_circles_normal",
    "CrowdDynamics.C08_circles_normal_coinciding",
    "CrowdDynamics.C08_circles_swap"
   ],
   "note": ""
  },
  {
   "property": "C09",
   "status": "partial",
   "theorems": [
    "CrowdDynamics.C09_three_circles_partial",
    "CrowdDynamics.C09_three_circles_symm",
    "CrowdDynamics.C09_three_circles_moment_fails"
   ],
   "note": "Distance, normal and first arm are proved; the arm of the second agent is off by x0[j]-x1[j] (C09_three_circles_moment_fails)."
  },
  {
   "property": "C10",
   "status": "proved",
   "theorems": [
    "CrowdDynamics.C10_circle_line_distance",
    "CrowdDynamics.C10_circle_line_degenerate"
   ],
   "note": ""
  },
  {
   "property": "C11",
   "status": "proved",
   "theorems": [
    "CrowdDynamics.C11_three_circle_line",
    "CrowdDynamics.C11_three_circle_line_degenerate"
   ],
   "note": ""
  },
  {
   "property": "C12",
   "status": "proved",
   "theorems": [
    "CrowdDynamics.C12_nearest_exact",
    "CrowdDynamics.C12_getitem_exact",
    "CrowdDynamics.C12_lookup_pure",
    "CrowdDynamics.C12_init"
   ],
   "note": ""
  },
  {
   "property": "C13",
   "status": "proved",
   "theorems": [
    "CrowdDynamics.C13_nearest_complete",
    "CrowdDynamics.C13_nearest_sound"
   ],
   "note": ""
  },
  {
   "property": "C14",
   "status": "proved",
   "theorems": [
    "CrowdDynamics.C14_agents_disjoint",
    "CrowdDynamics.C14_clear_of_obstacles"
   ],
   "note": ""
  },
  {
   "property": "C15",
   "status": "partial",
   "theorems": [
    "CrowdDynamics.C15_any_radius_fails",
    "CrowdDynamics.C15_any_radius_partial"
   ],
   "note": "False: two agents of radius 1 are placed 1.3 apart with the default cell size (C15_any_radius_fails); proved if the cell size is at least twice the largest radius."
  },
  {
   "property": "C16",
   "status": "proved",
   "theorems": [
    "CrowdDynamics.C16_shipped_values",
    "CrowdDynamics.C16_body_within",
    "CrowdDynamics.C16_default_cells",
    "CrowdDynamics.C16_placed_disjoint",
    "CrowdDynamics.C16_interactions_complete",
    "CrowdDynamics.C16_unknown_name"
   ],
   "note": ""
  },
  {
   "property": "C17",
   "status": "proved",
   "theorems": [
    "CrowdDynamics.C17_bookkeeping",
    "CrowdDynamics.C17_type_mismatch",
    "CrowdDynamics.C17_rows",
    "CrowdDynamics.C17_positions"
   ],
   "note": ""
  },
  {
   "property": "C18",
   "status": "partial",
   "theorems": [
    "CrowdDynamics.C18_shoulders_attached_fails",
    "CrowdDynamics.C18_no_overlap_fails",
    "CrowdDynamics.C18_shoulders_attached_partial",
    "CrowdDynamics.C18_no_overlap_partial",
    "CrowdDynamics.C18_body_within_partial"
   ],
   "note": "False when a candidate position is rejected: cached shoulders stay at the first candidate (two counterexamples). Proved: without rejections shoulders are attached; bodies that lie within ea, eb of their positions with ea+eb <= cell size never overlap, for every history."
  },
  {
   "property": "C19",
   "status": "proved",
   "theorems": [
    "CrowdDynamics.C19_timestep_bounds",
    "CrowdDynamics.C19_timestep_rest",
    "CrowdDynamics.C19_timestep_value",
    "CrowdDynamics.C19_step_length",
    "CrowdDynamics.C19_timestep_perm"
   ],
   "note": ""
  },
  {
   "property": "C20",
   "status": "proved",
   "theorems": [
    "CrowdDynamics.C20_euler_exact",
    "CrowdDynamics.C20_euler_rotation",
    "CrowdDynamics.C20_euler_integrator"
   ],
   "note": ""
  },
  {
   "property": "C21",
   "status": "partial",
   "theorems": [
    "CrowdDynamics.C21_verlet_exact_fails",
    "CrowdDynamics.C21_verlet_exact_partial",
    "CrowdDynamics.C21_verlet_error_partial",
    "CrowdDynamics.C21_verlet_velocity_partial"
   ],
   "note": "False: the position update uses the already updated velocity (C21_verlet_exact_fails). Proved: the velocity is exact and the position error is exactly acc * sum dt^2 for every sequence of steps."
  },
  {
   "property": "C22",
   "status": "proved",
   "theorems": [
    "CrowdDynamics.C22_verlet_shoulders",
    "CrowdDynamics.C22_verlet_init_shoulders"
   ],
   "note": ""
  },
  {
   "property": "C23",
   "status": "partial",
   "theorems": [
    "CrowdDynamics.C23_euler_rotates_fails",
    "CrowdDynamics.C23_euler_frozen_partial",
    "CrowdDynamics.C23_rotates_partial"
   ],
   "note": "False for euler_integrator on arrays created through Agents (dtype compared with 'is'); proved for the Verlet integrator and for the module constant dtype."
  },
  {
   "property": "C24",
   "status": "proved",
   "theorems": [
    "CrowdDynamics.C24_reported_time_is_first_touch",
    "CrowdDynamics.C24_reported_iff"
   ],
   "note": ""
  },
  {
   "property": "C25",
   "status": "proved",
   "theorems": [
    "CrowdDynamics.C25_social_force_is_energy_gradient",
    "CrowdDynamics.C25_potential",
    "CrowdDynamics.C25_zero_without_collision",
    "CrowdDynamics.C25_force_bounded"
   ],
   "note": ""
  },
  {
   "property": "C26",
   "status": "partial",
   "theorems": [
    "CrowdDynamics.C26_circular_third_law",
    "CrowdDynamics.C26_circular_antiparallel",
    "CrowdDynamics.C26_circular_swap",
    "CrowdDynamics.C26_circular_galilean",
    "CrowdDynamics.C26_three_circle_third_law",
    "CrowdDynamics.C26_three_circle_antiparallel",
    "CrowdDynamics.C26_three_circle_galilean",
    "CrowdDynamics.C26_three_circle_swap_fails",
    "CrowdDynamics.C26_three_circle_swap_partial"
   ],
   "note": "Proved for circular agents (third law, antiparallel, swap, Galilean invariance) and for three-circle agents except the exchange of the two agents, which is refuted by a concrete pair (C26_three_circle_swap_fails): the search over circle pairs can stop at a contact in the past in one order only. Missing: exchange when the collision is dropped in one order or several pairs tie."
  },
  {
   "property": "C27",
   "status": "partial",
   "theorems": [
    "CrowdDynamics.C27_nonzero_force_earliest_partial",
    "CrowdDynamics.C27_torsos_collide_partial",
    "CrowdDynamics.C27_zero_without_collision",
    "CrowdDynamics.C27_earliest_contact_fails"
   ],
   "note": "Refuted by a concrete pair of agents: a pair of circles whose contact lies in the past stops the search. Proved: a nonzero force reacts to the earliest contact; so does the force if the torsos are on a collision course; no future contact means no force."
  },
  {
   "property": "C28",
   "status": "partial",
   "theorems": [
    "CrowdDynamics.C28_damping_accelerates_fails",
    "CrowdDynamics.C28_parts_partial",
    "CrowdDynamics.C28_elastic_pushes_partial",
    "CrowdDynamics.C28_friction_dissipates_partial",
    "CrowdDynamics.C28_damping_power_partial",
    "CrowdDynamics.C28_overlapping_pushed_apart_partial"
   ],
   "note": "Elastic part repels and friction dissipates (proved). The damping part is added with the sign that accelerates separating/approaching bodies along their motion: its power is damping*(v.n)^2 >= 0, so 'damping damps' is refuted by a concrete witness. The shipped default for damping is 500, so this is reachable."
  },
  {
   "property": "C29",
   "status": "proved",
   "theorems": [
    "CrowdDynamics.C29_circular_momentum",
    "CrowdDynamics.C29_threeCircle_momentum",
    "CrowdDynamics.C29_pair_order",
    "CrowdDynamics.C29_circular_frame",
    "CrowdDynamics.C29_threeCircle_frame"
   ],
   "note": ""
  },
  {
   "property": "C30",
   "status": "proved",
   "theorems": [
    "CrowdDynamics.C30_circular_far",
    "CrowdDynamics.C30_threeCircle_far",
    "CrowdDynamics.C30_circular_cells",
    "CrowdDynamics.C30_threeCircle_cells"
   ],
   "note": ""
  },
  {
   "property": "C31",
   "status": "proved",
   "theorems": [
    "CrowdDynamics.C31_circular_walls",
    "CrowdDynamics.C31_threeCircle_walls",
    "CrowdDynamics.C31_wall_order",
    "CrowdDynamics.C31_agent_order",
    "CrowdDynamics.C31_clear_unchanged",
    "CrowdDynamics.C31_wall_repels"
   ],
   "note": ""
  },
  {
   "property": "C32",
   "status": "proved",
   "theorems": [
    "CrowdDynamics.C32_force_zero_iff",
    "CrowdDynamics.C32_force_relaxes",
    "CrowdDynamics.C32_torque_short_way",
    "CrowdDynamics.C32_torque_zero_iff",
    "CrowdDynamics.C32_torque_mirror",
    "CrowdDynamics.C32_torque_bounded",
    "CrowdDynamics.C32_adjusting_rows"
   ],
   "note": ""
  },
  {
   "property": "C33",
   "status": "proved",
   "theorems": [
    "CrowdDynamics.C33_truncnorm_range",
    "CrowdDynamics.C33_random_vector",
    "CrowdDynamics.C33_fluctuation_bounded"
   ],
   "note": ""
  },
  {
   "property": "C34",
   "status": "proved",
   "theorems": [
    "CrowdDynamics.C34_steps",
    "CrowdDynamics.C34_monotone",
    "CrowdDynamics.C34_layer_eq_agent"
   ],
   "note": ""
  },
  {
   "property": "C35",
   "status": "proved",
   "theorems": [
    "CrowdDynamics.C35_rank",
    "CrowdDynamics.C35_count_closer"
   ],
   "note": ""
  },
  {
   "property": "C36",
   "status": "proved",
   "theorems": [
    "CrowdDynamics.C36_nearest",
    "CrowdDynamics.C36_node"
   ],
   "note": ""
  },
  {
   "property": "C37",
   "status": "proved",
   "theorems": [
    "CrowdDynamics.C37_clock_ticks",
    "CrowdDynamics.C37_clock_terminates",
    "CrowdDynamics.C37_timings_sorted",
    "CrowdDynamics.C37_timings_terminate"
   ],
   "note": ""
  },
  {
   "property": "C38",
   "status": "proved",
   "theorems": [
    "CrowdDynamics.C38_line",
    "CrowdDynamics.C38_triangle",
    "CrowdDynamics.C38_linestring",
    "CrowdDynamics.C38_polygon"
   ],
   "note": ""
  },
  {
   "property": "C39",
   "status": "proved",
   "theorems": [
    "CrowdDynamics.C39_probability",
    "CrowdDynamics.C39_valid"
   ],
   "note": ""
  },
  {
   "property": "C40",
   "status": "partial",
   "theorems": [
    "CrowdDynamics.C40_sorted_partial",
    "CrowdDynamics.C40_linestring_fails",
    "CrowdDynamics.C40_never_chosen_fails",
    "CrowdDynamics.C40_single_partial"
   ],
   "note": "The segment weights are handed to searchsorted without being accumulated. C40_linestring_fails and C40_never_chosen_fails refute the claim; the partial theorems cover the case in which the weights happen to be sorted cumulatively and the single-segment case."
  },
  {
   "property": "C41",
   "status": "proved",
   "theorems": [
    "CrowdDynamics.C41_nearest",
    "CrowdDynamics.C41_all_if_few",
    "CrowdDynamics.C41_zero_raises"
   ],
   "note": ""
  },
  {
   "property": "C42",
   "status": "proved",
   "theorems": [
    "CrowdDynamics.C42_meaning",
    "CrowdDynamics.C42_symmetric",
    "CrowdDynamics.C42_direction",
    "CrowdDynamics.C42_unit_or_zero"
   ],
   "note": ""
  },
  {
   "property": "C43",
   "status": "proved",
   "theorems": [
    "CrowdDynamics.C43_leader_follower",
    "CrowdDynamics.C43_no_new_targets",
    "CrowdDynamics.C43_with_herding",
    "CrowdDynamics.C43_herding_direction"
   ],
   "note": ""
  },
  {
   "property": "C44",
   "status": "proved",
   "theorems": [
    "CrowdDynamics.C44_once",
    "CrowdDynamics.C44_children_first",
    "CrowdDynamics.C44_inject_before",
    "CrowdDynamics.C44_inject_after",
    "CrowdDynamics.C44_inject_new",
    "CrowdDynamics.C44_edits"
   ],
   "note": ""
  },
  {
   "property": "C45",
   "status": "proved",
   "theorems": [
    "CrowdDynamics.C45_iterations",
    "CrowdDynamics.C45_stops",
    "CrowdDynamics.C45_no_exit",
    "CrowdDynamics.C45_time",
    "CrowdDynamics.C45_time_exception"
   ],
   "note": ""
  },
  {
   "property": "C46",
   "status": "partial",
   "theorems": [
    "CrowdDynamics.C46_caught_partial",
    "CrowdDynamics.C46_other_exception",
    "CrowdDynamics.C46_fails"
   ],
   "note": "False: MultiAgentProcess.run catches only CrowdDynamicsException, so a ValueError of a node ends the process without an end marker (C46_fails). Proved: exactly one marker, last, whenever the run stops or raises a CrowdDynamicsException (C46_caught_partial); for other exceptions there is none (C46_other_exception)."
  },
  {
   "property": "C47",
   "status": "partial",
   "theorems": [
    "CrowdDynamics.C47_flags",
    "CrowdDynamics.C47_bound_partial",
    "CrowdDynamics.C47_no_return_partial",
    "CrowdDynamics.C47_constructed_partial",
    "CrowdDynamics.C47_fails"
   ],
   "note": "False: the counter adds every change of the flag, so an agent that leaves and returns counts twice (C47_fails). Proved: flags always right; counter = outside + even number; equality if nobody returns."
  },
  {
   "property": "C48",
   "status": "partial",
   "theorems": [
    "CrowdDynamics.C48_polygon_error",
    "CrowdDynamics.C48_partial",
    "CrowdDynamics.C48_fails"
   ],
   "note": "False: __init__ formats target_{index} with a positional argument, a KeyError exactly if there is a polygon target (C48_polygon_error, C48_fails). Without polygon targets the node does nothing (C48_partial)."
  },
  {
   "property": "C49",
   "status": "partial",
   "theorems": [
    "CrowdDynamics.C49_at_dump",
    "CrowdDynamics.C49_undisturbed_partial",
    "CrowdDynamics.C49_every_frame_partial",
    "CrowdDynamics.C49_crash",
    "CrowdDynamics.C49_copies_of_last",
    "CrowdDynamics.C49_fails"
   ],
   "note": "False: the buffer keeps references, so frames buffered while the array is updated in place are lost (C49_fails; C49_copies_of_last for all histories of this kind). Proved: files hold the values at the dump (C49_at_dump), hence what was sent if undisturbed or every frame is dumped."
  },
  {
   "property": "C50",
   "status": "partial",
   "theorems": [
    "CrowdDynamics.C50_exactly_partial",
    "CrowdDynamics.C50_no_digits_partial",
    "CrowdDynamics.C50_fails",
    "CrowdDynamics.C50_whitespace",
    "CrowdDynamics.C50_other_basename"
   ],
   "note": "False: lstrip removes digits of the index that occur in the basename (C50_fails, basename run1). C50_exactly_partial decides for every basename and number of files whether loading works or raises; C50_other_basename: files of agents2 are loaded for agents."
  },
  {
   "property": "C51",
   "status": "proved",
   "theorems": [
    "CrowdDynamics.C51_durable",
    "CrowdDynamics.C51_failed_dump",
    "CrowdDynamics.C51_protocol"
   ],
   "note": ""
  },
  {
   "property": "C52",
   "status": "partial",
   "theorems": [
    "CrowdDynamics.C52_lists_partial",
    "CrowdDynamics.C52_single",
    "CrowdDynamics.C52_twice",
    "CrowdDynamics.C52_fails",
    "CrowdDynamics.C52_multi"
   ],
   "note": "False: a single geometry is never loadable because a dict is Iterable (C52_single, C52_fails); saving twice makes the file unreadable (C52_twice). Proved for None and lists."
  },
  {
   "property": "C53",
   "status": "proved",
   "theorems": [
    "CrowdDynamics.C53_dimensions"
   ],
   "note": ""
  },
  {
   "property": "C54",
   "status": "partial",
   "theorems": [
    "CrowdDynamics.C54_inertia_fails",
    "CrowdDynamics.C54_inertia_partial",
    "CrowdDynamics.C54_inertia_stays_partial"
   ],
   "note": "Refuted: inertia_rot is written only while it is 0, so later changes of mass or radius leave it stale (C54_inertia_fails). Proved instead: the first assignment making mass and radius positive sets the documented value; a nonzero inertia is never updated by any other assignment; shipped body types get the right value (C16_shipped_values)."
  },
  {
   "property": "C55",
   "status": "partial",
   "theorems": [
    "CrowdDynamics.C55_unmodified_partial",
    "CrowdDynamics.C55_repeat_partial",
    "CrowdDynamics.C55_modified_fails"
   ],
   "note": "False after modifying a field that was queried before (the caches are keyed by identity): C55_modified_fails. Holds for all histories in which fields are modified only before their first query."
  },
  {
   "property": "C56",
   "status": "proved",
   "theorems": [
    "CrowdDynamics.C56_grid",
    "CrowdDynamics.C56_index",
    "CrowdDynamics.C56_valid_iff",
    "CrowdDynamics.C56_navigation"
   ],
   "note": ""
  },
  {
   "property": "C57",
   "status": "partial",
   "theorems": [
    "CrowdDynamics.C57_far",
    "CrowdDynamics.C57_near",
    "CrowdDynamics.C57_unit",
    "CrowdDynamics.C57_continuous_partial",
    "CrowdDynamics.C57_array_partial",
    "CrowdDynamics.C57_continuous_fails"
   ],
   "note": "proved for obstacle_handling; obstacle_handling_continuous uses the second component of the target direction for both components (obstacle_handling.py:88), so the claim about it is refuted (C57_continuous_fails) and C57_continuous_partial states what it computes"
  },
  {
   "property": "C58",
   "status": "partial",
   "theorems": [
    "CrowdDynamics.C58_linestring",
    "CrowdDynamics.C58_shells",
    "CrowdDynamics.C58_obstacles",
    "CrowdDynamics.C58_holefree_partial",
    "CrowdDynamics.C58_hole_fails"
   ],
   "note": "refuted for polygons with holes (only the exterior ring is used, geometry.py:92); proved for all hole-free geometries of any nesting, and C58_shells gives the exact result in general"
  },
  {
   "property": "C59",
   "status": "partial",
   "theorems": [
    "CrowdDynamics.C59_single_partial",
    "CrowdDynamics.C59_multi_fails"
   ],
   "note": "refuted for multi-part geometries (return in a generator, geometry.py:45); proved lossless for points, line strings and polygons with any holes"
  },
  {
   "property": "C60",
   "status": "partial",
   "theorems": [
    "CrowdDynamics.C60_holefree_partial",
    "CrowdDynamics.C60_among_partial",
    "CrowdDynamics.C60_hole_zero",
    "CrowdDynamics.C60_hole_fails"
   ],
   "note": "refuted for polygons with holes (0 is written, geometry.py:125); proved exactly for hole-free geometries, and in general every cell is old, value or 0"
  },
  {
   "property": "C61",
   "status": "partial",
   "theorems": [
    "CrowdDynamics.C61_classical_never",
    "CrowdDynamics.C61_fails",
    "CrowdDynamics.C61_core_partial",
    "CrowdDynamics.C61_voronoi2_partial",
    "CrowdDynamics.C61_voronoi2_fails",
    "CrowdDynamics.C61_negative_fails",
    "CrowdDynamics.C61_voronoi1_partial",
    "CrowdDynamics.C61_empty_cell_fails",
    "CrowdDynamics.C61_voronoi1_fails"
   ],
   "note": "False of the code. density_classical never returns a grid (its shape has no place for the largest index); density_voronoi_2 stores areas by point and reads them by region; density_voronoi_1 computes the number of columns from the wrong minimum. Partial results give what holds."
  },
  {
   "property": "C62",
   "status": "proved",
   "theorems": [
    "CrowdDynamics.C62_restores",
    "CrowdDynamics.C62_nested",
    "CrowdDynamics.C62_gone",
    "CrowdDynamics.C62_no_start"
   ],
   "note": "Proved for all bodies (arbitrary state changers that may raise) and any nesting depth. If the body removes the original directory, C62_gone shows that an OSError is raised instead."
  },
  {
   "property": "C63",
   "status": "partial",
   "theorems": [
    "CrowdDynamics.C63_exact_partial",
    "CrowdDynamics.C63_last_fails",
    "CrowdDynamics.C63_options_fails",
    "CrowdDynamics.C63_fails"
   ],
   "note": "False: the callbacks share one variable and take no arguments. A command works exactly when its class has no traits of its own and is the last class found (C63_exact_partial). Besides, setup.py:24-26 installs cli:main, which never calls simulation_commands."
  },
  {
   "property": "C64",
   "status": "proved",
   "theorems": [
    "CrowdDynamics.C64_from_array",
    "CrowdDynamics.C64_round_trip"
   ],
   "note": ""
  },
  {
   "property": "C65",
   "status": "partial",
   "theorems": [
    "CrowdDynamics.C65_flag_unread",
    "CrowdDynamics.C65_fails"
   ],
   "note": "False: the flag is never read by any node except InsideDomain (C65_flag_unread, proved for all nodes); C65_fails: an inactive agent changes the time step of an active one."
  },
  {
   "property": "C66",
   "status": "proved",
   "theorems": [
    "CrowdDynamics.C66_body",
    "CrowdDynamics.C66_forces"
   ],
   "note": ""
  },
  {
   "property": "C67",
   "status": "partial",
   "theorems": [
    "CrowdDynamics.C67_generator_fails",
    "CrowdDynamics.C67_exhausted_fails",
    "CrowdDynamics.C67_collection_partial",
    "CrowdDynamics.C67_callable_partial",
    "CrowdDynamics.C67_resize_partial",
    "CrowdDynamics.C67_refused_partial",
    "CrowdDynamics.C67_collection_size_fails",
    "CrowdDynamics.C67_fails"
   ],
   "note": "False: construction notifies the observer three times, so a generator is advanced 3*size items and member i gets item 2*size+i; a generator with fewer items raises StopIteration; collections ignore size. Proved for collections of the right length and for callables."
  },
  {
   "property": "C68",
   "status": "proved",
   "theorems": [
    "CrowdDynamics.C68_independent",
    "CrowdDynamics.C68_targets"
   ],
   "note": ""
  },
  {
   "property": "C69",
   "status": "partial",
   "theorems": [
    "CrowdDynamics.C69_moment_contact_point_fails",
    "CrowdDynamics.C69_moment_arm_partial"
   ],
   "note": "False for agent pairs (C69_moment_contact_point_fails); the end point of the first arm is shown to lie on the far side of the closest circle. For walls see C11."
  },
  {
   "property": "C70",
   "status": "partial",
   "theorems": [
    "CrowdDynamics.C70_only_placed_rows_fails",
    "CrowdDynamics.C70_only_placed_rows_partial",
    "CrowdDynamics.C70_unused_rows"
   ],
   "note": "False: rows of agents that did not fit stay in the array as zero-filled agents (the TODO at agents.py:675). Proved: rows from the index on are zero, and there are none if every group was placed completely."
  },
  {
   "property": "C71",
   "status": "partial",
   "theorems": [
    "CrowdDynamics.C71_negated_gradient_partial",
    "CrowdDynamics.C71_gradient_sign_fails"
   ],
   "note": "The returned vector has the opposite sign of the documented gradient (callers compensate). Negation proved with a concrete witness; the negated vector is proved to be the gradient."
  },
  {
   "property": "C72",
   "status": "partial",
   "theorems": [
    "CrowdDynamics.C72_torso_contact_gradient_partial",
    "CrowdDynamics.C72_shoulder_contact_gradient_fails"
   ],
   "note": "Refuted for contacts with a shoulder (offset has the wrong sign and a factor 2); proved for torso contacts."
  },
  {
   "property": "C73",
   "status": "proved",
   "theorems": [
    "CrowdDynamics.C73_uniform"
   ],
   "note": ""
  },
  {
   "property": "C74",
   "status": "partial",
   "theorems": [
    "CrowdDynamics.C74_head_on_fails",
    "CrowdDynamics.C74_oblique_partial"
   ],
   "note": "C74_head_on_fails: the comparison c < 1.0 excludes the angle 0, so an agent walking exactly towards another is reported as heading away. C74_oblique_partial covers all other angles."
  },
  {
   "property": "C75",
   "status": "partial",
   "theorems": [
    "CrowdDynamics.C75_hull_partial",
    "CrowdDynamics.C75_convex_partial",
    "CrowdDynamics.C75_no_obstacles_partial",
    "CrowdDynamics.C75_fails"
   ],
   "note": "False of the code: points are sampled from the convex hull of the free region (C75_fails). Proved: the points lie in that hull, and keep the distance if the free region is convex."
  },
  {
   "property": "C76",
   "status": "partial",
   "theorems": [
    "CrowdDynamics.C76_unit",
    "CrowdDynamics.C76_affine",
    "CrowdDynamics.C76_defined_partial",
    "CrowdDynamics.C76_corridor_fails"
   ],
   "note": "refuted on the centre line of narrow corridors (zero gradient of the obstacle distance gives NaN); unit length, exactness for affine maps and a sufficient condition for being defined are proved"
  },
  {
   "property": "C77",
   "status": "partial",
   "theorems": [
    "CrowdDynamics.C77_obstacles_partial",
    "CrowdDynamics.C77_no_obstacles_error",
    "CrowdDynamics.C77_fails"
   ],
   "note": "False of the code: without obstacles an exception is always raised (C77_no_obstacles_error, C77_fails). Proved for fields with obstacles."
  },
  {
   "property": "C78",
   "status": "partial",
   "theorems": [
    "CrowdDynamics.C78_inject_before_fails",
    "CrowdDynamics.C78_inject_after_partial",
    "CrowdDynamics.C78_inject_before_partial"
   ],
   "note": "False of the code: inject_before appends the new node to the children of the parent, so a node with siblings behind it moves behind them (C78_inject_before_fails). Proved for inject_after, and for inject_before at the root or at a last child."
  },
  {
   "property": "C79",
   "status": "proved",
   "theorems": [
    "CrowdDynamics.C79_getitem"
   ],
   "note": ""
  },
  {
   "property": "C80",
   "status": "proved",
   "theorems": [
    "CrowdDynamics.C80_roles"
   ],
   "note": ""
  },
  {
   "property": "C81",
   "status": "proved",
   "theorems": [
    "CrowdDynamics.C81_references"
   ],
   "note": ""
  },
  {
   "property": "C82",
   "status": "partial",
   "theorems": [
    "CrowdDynamics.C82_never",
    "CrowdDynamics.C82_fails",
    "CrowdDynamics.C82_first_partial"
   ],
   "note": "False for every basename (C82_never, C82_fails): basename.npy matches the search and int('') raises. The first concatenation is right (C82_first_partial)."
  },
  {
   "property": "C83",
   "status": "proved",
   "theorems": [
    "CrowdDynamics.C83_roundtrip"
   ],
   "note": ""
  },
  {
   "property": "C84",
   "status": "partial",
   "theorems": [
    "CrowdDynamics.C84_no_braces_partial",
    "CrowdDynamics.C84_fails",
    "CrowdDynamics.C84_wrong_directory"
   ],
   "note": "False for names with braces because the whole path is a format template (C84_fails, C84_wrong_directory)."
  },
  {
   "property": "C85",
   "status": "proved",
   "theorems": [
    "CrowdDynamics.C85_regions",
    "CrowdDynamics.C85_far_point"
   ],
   "note": "scipy.spatial.Voronoi is an input that satisfies ValidVoronoi; argsort returns a permutation."
  },
  {
   "property": "C86",
   "status": "partial",
   "theorems": [
    "CrowdDynamics.C86_cwd_partial",
    "CrowdDynamics.C86_other_directory_fails",
    "CrowdDynamics.C86_fails"
   ],
   "note": "False for directories other than the current one (names are not joined with dir_path) and for names bound in two files; exact characterisation for the current directory."
  },
  {
   "property": "C87",
   "status": "partial",
   "theorems": [
    "CrowdDynamics.C87_order_partial",
    "CrowdDynamics.C87_fails"
   ],
   "note": "False: mkspec asks for an instance of the marker class inspect.Parameter.empty, while a missing default is that class itself. The rest is proved."
  },
  {
   "property": "C88",
   "status": "partial",
   "theorems": [
    "CrowdDynamics.C88_once_partial",
    "CrowdDynamics.C88_fails"
   ],
   "note": "False: num is stored in the context but never read. Proved for num = 1."
  },
  {
   "property": "C89",
   "status": "partial",
   "theorems": [
    "CrowdDynamics.C89_fields_partial",
    "CrowdDynamics.C89_order_partial",
    "CrowdDynamics.C89_agents",
    "CrowdDynamics.C89_excluded",
    "CrowdDynamics.C89_indices",
    "CrowdDynamics.C89_fails"
   ],
   "note": "If a dtype is made, its fields are exactly the visible traits in the order of the hierarchy, and the fields of the shipped agent types are computed exactly; but overriding a trait makes it visible twice and raises a ValueError (C89_fails)."
  },
  {
   "property": "C90",
   "status": "proved",
   "theorems": [
    "CrowdDynamics.C90_accepts",
    "CrowdDynamics.C90_invariant",
    "CrowdDynamics.C90_validators"
   ],
   "note": "Proved for the validators and for any sequence of assignments; np.isclose is modelled with its default tolerances."
  },
  {
   "property": "C91",
   "status": "partial",
   "theorems": [
    "CrowdDynamics.C91_agrees_partial",
    "CrowdDynamics.C91_float_fails",
    "CrowdDynamics.C91_enum_fails",
    "CrowdDynamics.C91_fails",
    "CrowdDynamics.C91_tuple"
   ],
   "note": "Holds for integers, complex numbers, truth values, strings, unbounded reals and enumerations of strings; false for bounded reals (the option has no range) and for enumerations of classes such as agent_type."
  },
  {
   "property": "C92",
   "status": "partial",
   "theorems": [
    "CrowdDynamics.C92_partial",
    "CrowdDynamics.C92_fails"
   ],
   "note": "False: a partially failed validation returns a dictionary, which counts as true. Only configurations without any valid section are rejected. The behaviour of configobj.validate is a modelled library contract."
  },
  {
   "property": "C93",
   "status": "partial",
   "theorems": [
    "CrowdDynamics.C93_partial",
    "CrowdDynamics.C93_fails"
   ],
   "note": "False in python 3: functions have no attribute func_code, so each call raises an AttributeError."
  },
  {
   "property": "C94",
   "status": "proved",
   "theorems": [
    "CrowdDynamics.C94_tree",
    "CrowdDynamics.C94_chain",
    "CrowdDynamics.C94_counters"
   ],
   "note": "Evaluation order, numbering and the operator << are modelled as Python runs them; proved by induction over expressions."
  },
  {
   "property": "C95",
   "status": "partial",
   "theorems": [
    "CrowdDynamics.C95_partial",
    "CrowdDynamics.C95_fails"
   ],
   "note": "False of the code for TestMovement (written without parentheses): C95_fails; proved for the other twelve shipped simulations."
  },
  {
   "property": "C96",
   "status": "partial",
   "theorems": [
    "CrowdDynamics.C96_partial",
    "CrowdDynamics.C96_fails"
   ],
   "note": "False of the code: InsideDomain is a sibling that runs before the integrator, so the flags are one update old (C96_fails, concrete run). C96_partial: the flags describe the positions at the start of the update."
  },
  {
   "property": "C97",
   "status": "partial",
   "theorems": [
    "CrowdDynamics.C97_coasting",
    "CrowdDynamics.C97_fails"
   ],
   "note": "False of the code: forces are computed after the integrator and cleared; C97_coasting proves that velocities never change, for any crowd and number of updates, C97_fails gives a standing agent."
  },
  {
   "property": "C98",
   "status": "partial",
   "theorems": [
    "CrowdDynamics.C98_partial",
    "CrowdDynamics.C98_fails",
    "CrowdDynamics.C98_run_partial",
    "CrowdDynamics.C98_herding_partial"
   ],
   "note": "False of the code: AroundCircle and AvoidPillar have no agents (C98_fails). C98_partial: Outdoor, TestMovement and TestAgentInteraction never raise. C98_herding_partial: the trees with herding but without an exit never raise if the obstacles are points, lines and polygons. C98_run_partial: all 13 trees with agents make any number of updates if, besides that, the field has a domain and targets and the directions to the targets can be computed (C77 says when). Missing: the simulations without agents, of which it is false."
  },
  {
   "property": "C99",
   "status": "partial",
   "theorems": [
    "CrowdDynamics.C99_partial",
    "CrowdDynamics.C99_fails"
   ],
   "note": "False of the code for RoomWithOneExit when exit_width exceeds height (C99_fails: the outline has gaps); proved for all other shipped fields with walls and all accepted parameters (C99_partial)."
  },
  {
   "property": "C100",
   "status": "partial",
   "theorems": [
    "CrowdDynamics.C100_partial",
    "CrowdDynamics.C100_fails",
    "CrowdDynamics.C100_pillar_fails"
   ],
   "note": "False of the code for AvoidObstacle when exit_width exceeds height (C100_fails) and for PillarInTheMiddle already with its default parameters (C100_pillar_fails); proved for all others (C100_partial)."
  },
  {
   "property": "C101",
   "status": "partial",
   "theorems": [
    "CrowdDynamics.C101_partial",
    "CrowdDynamics.C101_fails"
   ],
   "note": "False of the code for AvoidObstacle with ratio_obs = 1 (C101_fails); proved for all other fields and parameters, RoomWithOneExit needs an exit that fits into the room (C101_partial)."
  },
  {
   "property": "C102",
   "status": "proved",
   "theorems": [
    "CrowdDynamics.C102_leaders"
   ],
   "note": ""
  },
  {
   "property": "C103",
   "status": "proved",
   "theorems": [
    "CrowdDynamics.C103_references",
    "CrowdDynamics.C103_roles"
   ],
   "note": ""
  },
  {
   "property": "C104",
   "status": "partial",
   "theorems": [
    "CrowdDynamics.C104_partial",
    "CrowdDynamics.C104_fails"
   ],
   "note": "False of the code for a hallway of odd size, which places size - 1 agents (C104_fails); proved for everything else (C104_partial)."
  },
  {
   "property": "C105",
   "status": "proved",
   "theorems": [
    "CrowdDynamics.C105_heading",
    "CrowdDynamics.C105_room"
   ],
   "note": ""
  },
  {
   "property": "C106",
   "status": "partial",
   "theorems": [
    "CrowdDynamics.C106_partial",
    "CrowdDynamics.C106_fails"
   ],
   "note": "False of the code for ratios above one half, which the trait accepts (C106_fails); proved up to one half (C106_partial)."
  },
  {
   "property": "C107",
   "status": "partial",
   "theorems": [
    "CrowdDynamics.C107_partial",
    "CrowdDynamics.C107_extremes",
    "CrowdDynamics.C107_fails"
   ],
   "note": "False of the code: AvoidObstacle accepts exit widths below 1 and ratios that give a detection range below 1, its field and ExitDetection do not (C107_fails); proved otherwise (C107_partial)."
  },
  {
   "property": "C108",
   "status": "partial",
   "theorems": [
    "CrowdDynamics.C108_partial",
    "CrowdDynamics.C108_fails"
   ],
   "note": "False of the code: only OutdoorField and HallwayField observe their parameters (C108_partial), the other fields keep their old geometry (C108_fails)."
  },
  {
   "property": "C109",
   "status": "partial",
   "theorems": [
    "CrowdDynamics.C109_partial",
    "CrowdDynamics.C109_fails"
   ],
   "note": "False of the code: the pillar is centred at the origin while the domain is [w/2,w] x [h/2,h], so with the default parameters the two do not meet (C109_fails); C109_partial gives the exact condition."
  },
  {
   "property": "C110",
   "status": "proved",
   "theorems": [
    "CrowdDynamics.C110_pair_forces"
   ],
   "note": ""
  },
  {
   "property": "C111",
   "status": "proved",
   "theorems": [
    "CrowdDynamics.C111_field_walls"
   ],
   "note": ""
  },
  {
   "property": "C112",
   "status": "proved",
   "theorems": [
    "CrowdDynamics.C112_newton"
   ],
   "note": ""
  },
  {
   "property": "C113",
   "status": "proved",
   "theorems": [
    "CrowdDynamics.C113_shipped_newton"
   ],
   "note": ""
  },
  {
   "property": "C114",
   "status": "proved",
   "theorems": [
    "CrowdDynamics.C114_number",
    "CrowdDynamics.C114_closest",
    "CrowdDynamics.C114_refused"
   ],
   "note": ""
  },
  {
   "property": "C115",
   "status": "proved",
   "theorems": [
    "CrowdDynamics.C115_segments",
    "CrowdDynamics.C115_draw",
    "CrowdDynamics.C115_array",
    "CrowdDynamics.C115_storage",
    "CrowdDynamics.C115_concatenate",
    "CrowdDynamics.C115_dictionary"
   ],
   "note": ""
  },
  {
   "property": "C116",
   "status": "proved",
   "theorems": [
    "CrowdDynamics.C116_map"
   ],
   "note": ""
  },
  {
   "property": "C117",
   "status": "proved",
   "theorems": [
    "CrowdDynamics.C117_ranges",
    "CrowdDynamics.C117_refused",
    "CrowdDynamics.C117_body_type"
   ],
   "note": ""
  },
  {
   "property": "C118",
   "status": "proved",
   "theorems": [
    "CrowdDynamics.C118_tests",
    "CrowdDynamics.C118_all_placed",
    "CrowdDynamics.C118_rejected"
   ],
   "note": ""
  },
  {
   "property": "C119",
   "status": "proved",
   "theorems": [
    "CrowdDynamics.C119_node",
    "CrowdDynamics.C119_failure"
   ],
   "note": ""
  },
  {
   "property": "C120",
   "status": "partial",
   "theorems": [
    "CrowdDynamics.C120_partial",
    "CrowdDynamics.C120_room_partial",
    "CrowdDynamics.C120_fails"
   ],
   "note": "False for RoomWithOneExit with default parameters (C120_fails: the obstacles are not passed to the placement and the convex hull of the free region cuts the corner beside the door); proved for all other shipped simulations with walls (C120_partial) and, in RoomWithOneExit, for the three line walls (C120_room_partial)."
  },
  {
   "property": "C121",
   "status": "partial",
   "theorems": [
    "CrowdDynamics.C121_partial",
    "CrowdDynamics.C121_every_update_partial",
    "CrowdDynamics.C121_geometry_partial",
    "CrowdDynamics.C121_geometry_error",
    "CrowdDynamics.C121_crash",
    "CrowdDynamics.C121_fails",
    "CrowdDynamics.C121_directory"
   ],
   "note": "False of the code in two ways. save_npy keeps references to the agent array, which the simulation changes in place, so all frames between two saves show the agents at the second save (C121_fails; C121_partial says exactly what is stored). The geometry of a field whose domain is a polygon can be written but never loaded, and no geometry can be loaded once a second simulation was stored in the same directory (C121_geometry_error). Proved: metadata and data files exact; one frame per data row; right if every update is saved; geometry loads if domain and obstacles are None; after an exception the data up to the save before is kept, and the agents are stored up to the save before or one save further (C121_crash)."
  },
  {
   "property": "C122",
   "status": "partial",
   "theorems": [
    "CrowdDynamics.C122_pair_effects_partial",
    "CrowdDynamics.C122_fails"
   ],
   "note": "Refuted (C122_fails): with two overlapping agents that rub against each other, the friction turns the first one the wrong way or not at all, because the arms of the forces lead to the far side of the circle and the arm for the second circle may start at the other agent (C09, C69). What holds (C122_pair_effects_partial): everything else in the statement, with the arms that the code uses; that social forces use 3 times the offset of the circles (C72) and may miss collisions of shoulders (C27) is part of the specification of the social force."
  },
  {
   "property": "C123",
   "status": "partial",
   "theorems": [
    "CrowdDynamics.C123_newton_partial",
    "CrowdDynamics.C123_fails",
    "CrowdDynamics.C123_shipped_newton_partial"
   ],
   "note": "Refuted (C123_fails) by an update of the two agents of C122. What holds (C123_newton_partial for trees, C123_shipped_newton_partial for the shipped simulations): the full statement with the arms that the code uses instead of arms to the point of contact."
  },
  {
   "property": "C124",
   "status": "partial",
   "theorems": [
    "CrowdDynamics.C124_ranges_partial",
    "CrowdDynamics.C124_fails",
    "CrowdDynamics.C124_empty"
   ],
   "note": "Refuted (C124_fails): the margin is a fraction of the range of the data, not of the total plot range as documented; for the unit square and margin 0.1 it is 0.1 of 1.2. What holds (C124_ranges_partial): everything else, with the margin as a fraction of the range of the data, and there are no smaller ranges like this; C124_empty: no data raise ValueError."
  },
  {
   "property": "C125",
   "status": "partial",
   "theorems": [
    "CrowdDynamics.C125_drawn_partial",
    "CrowdDynamics.C125_refused",
    "CrowdDynamics.C125_fails"
   ],
   "note": "Refuted (C125_fails): holes of polygons are filled, as only the exterior is passed to bokeh. What holds (C125_drawn_partial): all points are drawn, and nothing else if there are no holes; C125_refused: anything else raises TypeError. Interior of a ring: even-odd rule."
  },
  {
   "property": "C126",
   "status": "partial",
   "theorems": [
    "CrowdDynamics.C126_add_field_partial",
    "CrowdDynamics.C126_add_field_refused",
    "CrowdDynamics.C126_fails",
    "CrowdDynamics.C126_plot_refused",
    "CrowdDynamics.C126_plot"
   ],
   "note": "Refuted (C126_fails): a field without obstacles (the default value None) raises TypeError, as does one without domain. plot_field raises for every field without a domain, although it has a branch for this case, and for every field without obstacles (C126_plot_refused, see C77). What holds: fields with both (C126_add_field_partial, C126_plot)."
  },
  {
   "property": "C127",
   "status": "partial",
   "theorems": [
    "CrowdDynamics.C127_distance_partial",
    "CrowdDynamics.C127_fails",
    "CrowdDynamics.C127_arrows"
   ],
   "note": "Refuted for distance maps (C127_fails): the upper right corner of the domain is passed to bokeh as width and height, so the image is misplaced unless the lower left corner is the origin (C127_distance_partial). Direction maps: C127_arrows is the full claim."
  },
  {
   "property": "C128",
   "status": "proved",
   "theorems": [
    "CrowdDynamics.C128_figure",
    "CrowdDynamics.C128_render"
   ],
   "note": ""
  },
  {
   "property": "C129",
   "status": "proved",
   "theorems": [
    "CrowdDynamics.C129_invariant",
    "CrowdDynamics.C129_assign"
   ],
   "note": ""
  },
  {
   "property": "C130",
   "status": "proved",
   "theorems": [
    "CrowdDynamics.C130_speed_limit",
    "CrowdDynamics.C130_alone"
   ],
   "note": ""
  },
  {
   "property": "C131",
   "status": "proved",
   "theorems": [
    "CrowdDynamics.C131_relaxes"
   ],
   "note": ""
  },
  {
   "property": "C132",
   "status": "partial",
   "theorems": [
    "CrowdDynamics.C132_no_jump_partial",
    "CrowdDynamics.C132_fails"
   ],
   "note": "False as stated: the time step is always 0.01 (dt_min = dt_max in the default Integrator) whatever the speed, so an agent with 100 m/s in front of a wall is behind it after one update (C132_fails, simulation with walls). Proved: with the speed limit V of C130 no agent moves further than dt * V * (1 + dt / tau_adj) per update, and passes no untouched wall if this is less than its radius (about 24 m/s for an adult)."
  },
  {
   "property": "C133",
   "status": "proved",
   "theorems": [
    "CrowdDynamics.C133_viewpoint",
    "CrowdDynamics.C133_run",
    "CrowdDynamics.C133_symmetry"
   ],
   "note": ""
  },
  {
   "property": "C134",
   "status": "proved",
   "theorems": [
    "CrowdDynamics.C134_checkout",
    "CrowdDynamics.C134_checkout_root"
   ],
   "note": ""
  },
  {
   "property": "C135",
   "status": "partial",
   "theorems": [
    "CrowdDynamics.C135_fails",
    "CrowdDynamics.C135_identifies_partial"
   ],
   "note": "Full statement refuted (C135_fails): a commit tagged 1+2.gab and the commit ab, two commits after the tag 1, report the same version 1+2.gab. Proved for tags without +."
  },
  {
   "property": "C136",
   "status": "partial",
   "theorems": [
    "CrowdDynamics.C136_fails",
    "CrowdDynamics.C136_checkout_partial",
    "CrowdDynamics.C136_directory_partial"
   ],
   "note": "Full statement refuted (C136_fails): without git, in a directory crowddynamics-master (as made by unpacking the archive of a branch) the version is master. Proved for working copies with canonical tags; without git the version is the end of the name of the directory, or 0+unknown if none of three directories is named crowddynamics-..."
  },
  {
   "property": "C137",
   "status": "partial",
   "theorems": [
    "CrowdDynamics.C137_fails",
    "CrowdDynamics.C137_tags_partial",
    "CrowdDynamics.C137_untagged_partial"
   ],
   "note": "Full statement refuted (C137_fails): if the commit has no tags but the name of its branch contains a digit, the version is text like HEAD -> release2 (the comment in the code assumes that such refs are tags of old versions of git). Proved if the commit has tags, and if it has none and no name contains a digit."
  },
  {
   "property": "C138",
   "status": "partial",
   "theorems": [
    "CrowdDynamics.C138_fails",
    "CrowdDynamics.C138_no_exception_partial",
    "CrowdDynamics.C138_error_report_partial",
    "CrowdDynamics.C138_return_code_partial"
   ],
   "note": "Full statement refuted (C138_fails): if git show fails, None.strip() raises AttributeError; if there are no tags and git rev-list fails, int(None) raises TypeError; both escape get_versions and hence import crowddynamics. Proved if git is not found or if these two commands succeed, whatever the other commands do."
  },
  {
   "property": "C139",
   "status": "partial",
   "theorems": [
    "CrowdDynamics.C139_fails",
    "CrowdDynamics.C139_describe_partial"
   ],
   "note": "Full statement refuted (C139_fails): without tags the code takes the first seven digits of the hash, git may abbreviate to more. Proved with a tag or if git abbreviates to seven digits."
  },
  {
   "property": "C140",
   "status": "proved",
   "theorems": [
    "CrowdDynamics.C140_start",
    "CrowdDynamics.C140_walk"
   ],
   "note": ""
  },
  {
   "property": "C141",
   "status": "proved",
   "theorems": [
    "CrowdDynamics.C141_start",
    "CrowdDynamics.C141_symmetric"
   ],
   "note": ""
  },
  {
   "property": "C142",
   "status": "partial",
   "theorems": [
    "CrowdDynamics.C142_destinations_partial",
    "CrowdDynamics.C142_fails",
    "CrowdDynamics.C142_user_info_partial"
   ],
   "note": "Disagreement: the logger of the package has the level INFO (logging.yaml:48), so DEBUG messages are dropped before the handler of debug.log (level DEBUG) sees them; debug.log and info.log always have the same contents, and nothing of the package appears on the console because propagate is off. Proved instead: the exact destinations for every logger and level."
  },
  {
   "property": "C143",
   "status": "partial",
   "theorems": [
    "CrowdDynamics.C143_level_partial",
    "CrowdDynamics.C143_fails"
   ],
   "note": "Disagreement: setup_logging ignores its argument loglevel (logging.py:53-57); whatever level is given, messages are written from INFO on. Proved instead: this, for every accepted value, and that the claim holds exactly for INFO."
  },
  {
   "property": "C144",
   "status": "partial",
   "theorems": [
    "CrowdDynamics.C144_choices_partial",
    "CrowdDynamics.C144_fails"
   ],
   "note": "Disagreement: LOGLEVELS mixes numbers and texts. Values on the command line are texts, so the numbers can never match; the list of choices cannot be joined, so every refused value ends with a TypeError instead of a usage error and so does run --help. Proved instead: exactly the eight names (and the default) are accepted, everything else and the help raise TypeError."
  },
  {
   "property": "C145",
   "status": "partial",
   "theorems": [
    "CrowdDynamics.C145_script_partial",
    "CrowdDynamics.C145_module_partial",
    "CrowdDynamics.C145_fails"
   ],
   "note": "Disagreement: the simulations become commands only under if __name__ == \"__main__\"; the installed script calls main after importing the module, so the group run is empty. Proved instead: with the script every name is a usage error; the module run as a program runs a simulation that is alone and has no attributes of its own (see C63 for the general case)."
  },
  {
   "property": "C146",
   "status": "proved",
   "theorems": [
    "CrowdDynamics.C146_outdoor",
    "CrowdDynamics.C146_led"
   ],
   "note": ""
  },
  {
   "property": "C147",
   "status": "proved",
   "theorems": [
    "CrowdDynamics.C147_progress",
    "CrowdDynamics.C147_alone",
    "CrowdDynamics.C147_leaves"
   ],
   "note": ""
  },
  {
   "property": "C148",
   "status": "proved",
   "theorems": [
    "CrowdDynamics.C148_time_limit",
    "CrowdDynamics.C148_shipped",
    "CrowdDynamics.C148_iterations"
   ],
   "note": ""
  },
  {
   "property": "C149",
   "status": "proved",
   "theorems": [
    "CrowdDynamics.C149_determined",
    "CrowdDynamics.C149_opposite",
    "CrowdDynamics.C149_momentum"
   ],
   "note": ""
  },
  {
   "property": "C150",
   "status": "partial",
   "theorems": [
    "CrowdDynamics.C150_styles_partial",
    "CrowdDynamics.C150_post_partial",
    "CrowdDynamics.C150_fails",
    "CrowdDynamics.C150_choice_partial"
   ],
   "note": "Without tags, pep440-post also reports the hash (0.postDISTANCE[.dev0]+gHEX), which its docstring does not say; with a tag that contains a plus sign the second separator is a dot. Both are stated exactly by C150_post_partial."
  },
  {
   "property": "C151",
   "status": "proved",
   "theorems": [
    "CrowdDynamics.C151_group",
    "CrowdDynamics.C151_horizon"
   ],
   "note": ""
  },
  {
   "property": "C152",
   "status": "partial",
   "theorems": [
    "CrowdDynamics.C152_table_partial",
    "CrowdDynamics.C152_agents_partial",
    "CrowdDynamics.C152_names_partial",
    "CrowdDynamics.C152_fails"
   ],
   "note": "The code disagrees: a trait whose default value is a tuple makes table_of_traits raise a TypeError, because Rst.literal applies the operator % to it (traits.py:237). Texts with line breaks are left out: textwrap.indent indents the lines inside of a cell as well."
  },
  {
   "property": "C153",
   "status": "partial",
   "theorems": [
    "CrowdDynamics.C153_docstring_partial",
    "CrowdDynamics.C153_agents_partial",
    "CrowdDynamics.C153_fails",
    "CrowdDynamics.C153_undocumented_partial"
   ],
   "note": "The code disagrees: the decorator uses the operator % on the whole docstring (utils.py:49), so a lone percent sign in it raises, and so does a missing docstring."
  },
  {
   "property": "C154",
   "status": "proved",
   "theorems": [
    "CrowdDynamics.C154_search",
    "CrowdDynamics.C154_read",
    "CrowdDynamics.C154_shipped",
    "CrowdDynamics.C154_missing"
   ],
   "note": ""
  },
  {
   "property": "C155",
   "status": "proved",
   "theorems": [
    "CrowdDynamics.C155_triangle",
    "CrowdDynamics.C155_uniform"
   ],
   "note": ""
  },
  {
   "property": "C156",
   "status": "proved",
   "theorems": [
    "CrowdDynamics.C156_isotropic",
    "CrowdDynamics.C156_mean",
    "CrowdDynamics.C156_random_vector",
    "CrowdDynamics.C156_torque"
   ],
   "note": ""
  },
  {
   "property": "C157",
   "status": "proved",
   "theorems": [
    "CrowdDynamics.C157_count",
    "CrowdDynamics.C157_ends",
    "CrowdDynamics.C157_timings_end",
    "CrowdDynamics.C157_timings"
   ],
   "note": ""
  },
  {
   "property": "C158",
   "status": "proved",
   "theorems": [
    "CrowdDynamics.C158_euler",
    "CrowdDynamics.C158_verlet"
   ],
   "note": ""
  },
  {
   "property": "C159",
   "status": "partial",
   "theorems": [
    "CrowdDynamics.C159_first_order_partial",
    "CrowdDynamics.C159_constant_error",
    "CrowdDynamics.C159_fails"
   ],
   "note": "velocity_verlet_integrator updates the velocity by the mean of the forces of the previous and of this step and then moves by the new velocity plus half the acceleration; under constant acceleration a the position is wrong by a t h after the time t, so the method is only of first order (proved as C159_first_order_partial), although velocity Verlet is of second order."
  },
  {
   "property": "C160",
   "status": "partial",
   "theorems": [
    "CrowdDynamics.C160_circular_partial",
    "CrowdDynamics.C160_parts_ahead_partial",
    "CrowdDynamics.C160_slows_approach_fails"
   ],
   "note": "False for three-circle agents (C160_slows_approach_fails): gradient_three_circle adds twice the displacement of the shoulder, and the displacement has the wrong sign (see C72). If a pedestrian will graze another one with a shoulder that is behind, the social force pushes the pedestrian forward and pulls the other one closer. Proved: the whole claim for circular agents, and for three-circle agents if the parts that touch first are not behind the middle of their bodies. Missing: contacts of shoulders that are behind, for which it is false."
  },
  {
   "property": "C161",
   "status": "partial",
   "theorems": [
    "CrowdDynamics.C161_not_colliding_partial",
    "CrowdDynamics.C161_colliding_keywords_partial",
    "CrowdDynamics.C161_colliding_fails"
   ],
   "note": "False (C161_colliding_fails): test_colliding calls agent_type({...}) with a positional dictionary instead of keywords. HasTraits ignores positional arguments (traitlets 4.3.2 turns the TypeError into a warning), so the test examines two default agents at the same place and its assertions fail. Proved: the assertions of test_not_colliding, and those of test_colliding if the attributes are passed as keywords."
  },
  {
   "property": "C162",
   "status": "proved",
   "theorems": [
    "CrowdDynamics.C162_range",
    "CrowdDynamics.C162_congruent",
    "CrowdDynamics.C162_idempotent",
    "CrowdDynamics.C162_ends",
    "CrowdDynamics.C162_exact",
    "CrowdDynamics.C162_rounding"
   ],
   "note": ""
  },
  {
   "property": "C163",
   "status": "partial",
   "theorems": [
    "CrowdDynamics.C163_unchanged_fails",
    "CrowdDynamics.C163_unchanged_partial"
   ],
   "note": "Disagreement: the documentation (interval [-pi, pi] is mapped to itself) does not hold for small negative angles in floating point: wrap_to_pi(-2**-60) is 0. Partial: nonnegative angles are unchanged and the error for negative ones is at most 2^-51."
  },
  {
   "property": "C164",
   "status": "proved",
   "theorems": [
    "CrowdDynamics.C164_same_key",
    "CrowdDynamics.C164_searched_keys",
    "CrowdDynamics.C164_complete",
    "CrowdDynamics.C164_floor_division"
   ],
   "note": ""
  },
  {
   "property": "C165",
   "status": "partial",
   "theorems": [
    "CrowdDynamics.C165_decimal_fails",
    "CrowdDynamics.C165_decimal_partial"
   ],
   "note": "Disagreement: narrow_exit_capacity(0.6, 0.2) is 2, not 3, because 0.6 // 0.2 is 2.0 in float64. Partial: the capacity is k or k - 1, and k if the widths are floats."
  },
  {
   "property": "C166",
   "status": "proved",
   "theorems": [
    "CrowdDynamics.C166_opposite",
    "CrowdDynamics.C166_order",
    "CrowdDynamics.C166_interaction",
    "CrowdDynamics.C166_exact"
   ],
   "note": ""
  },
  {
   "property": "C167",
   "status": "partial",
   "theorems": [
    "CrowdDynamics.C167_total_fails",
    "CrowdDynamics.C167_total_partial",
    "CrowdDynamics.C167_single_partial"
   ],
   "note": "Disagreement: adding the forces of several neighbours rounds, so the total force of a crowd is not conserved exactly. Partial: bound by two rounding errors for each pair, and exact for the first pair."
  },
  {
   "property": "C168",
   "status": "partial",
   "theorems": [
    "CrowdDynamics.C168_intersect_fails",
    "CrowdDynamics.C168_intersect_partial",
    "CrowdDynamics.C168_parallel_partial",
    "CrowdDynamics.C168_exact"
   ],
   "note": "Disagreement: almost parallel crossing segments are reported as disjoint, since the cross product of their directions is rounded to zero. Partial: exact on grids of 2^25 points per axis."
  },
  {
   "property": "C169",
   "status": "partial",
   "theorems": [
    "CrowdDynamics.C169_times",
    "CrowdDynamics.C169_near",
    "CrowdDynamics.C169_exact",
    "CrowdDynamics.C169_ends_fails",
    "CrowdDynamics.C169_ends_partial"
   ],
   "note": "Disagreement: the generator does not end if the intervals are below the resolution of the time reached. Partial: order, range, accuracy and the end at an interval of at least dt."
  },
  {
   "property": "C170",
   "status": "partial",
   "theorems": [
    "CrowdDynamics.C170_test_wrap_to_pi_fails",
    "CrowdDynamics.C170_range_partial",
    "CrowdDynamics.C170_test_wrap_to_pi_partial",
    "CrowdDynamics.C170_exact_partial"
   ],
   "note": "False of the code. For large arguments np.pi times a power of two is not an odd multiple of np.pi, but phi + np.pi rounds to phi, so the condition of the test holds while the result is 0 (witness phi = 2^61 np.pi). Proved: the range for all arguments; the whole test for -np.pi <= phi < np.pi - 2^-50 and phi = np.pi; the whole test in exact arithmetic."
  },
  {
   "property": "C171",
   "status": "proved",
   "theorems": [
    "CrowdDynamics.C171_test_length",
    "CrowdDynamics.C171_test_length_detects",
    "CrowdDynamics.C171_test_normalize",
    "CrowdDynamics.C171_test_truncate",
    "CrowdDynamics.C171_test_distance_circle_circle",
    "CrowdDynamics.C171_test_narrow_exit_capacity",
    "CrowdDynamics.C171_truncate_length"
   ],
   "note": ""
  },
  {
   "property": "C172",
   "status": "proved",
   "theorems": [
    "CrowdDynamics.C172_test_mutable_block_list",
    "CrowdDynamics.C172_keys"
   ],
   "note": ""
  },
  {
   "property": "C173",
   "status": "partial",
   "theorems": [
    "CrowdDynamics.C173_test_line_intersect_fails",
    "CrowdDynamics.C173_test_line_intersect_partial"
   ],
   "note": "False of the code. For collinear segments that overlap line_intersect answers False and shapely True, so the test is flaky in principle (witness: two equal segments). Proved for coordinates that are multiples of 2^-24 when the segments are not parallel or do not meet."
  },
  {
   "property": "C174",
   "status": "partial",
   "theorems": [
    "CrowdDynamics.C174_test_poisson_clock_fails",
    "CrowdDynamics.C174_test_poisson_clock_partial",
    "CrowdDynamics.C174_exact_partial",
    "CrowdDynamics.C174_test_poisson_timings"
   ],
   "note": "False of the code. If the first drawn interval is zero the time 0.0 is yielded and the test asserts 0.0 < 0.0. Proved for intervals of at least 2^-58 with rounding, and for positive intervals without; test_poisson_timings passes in general."
  },
  {
   "property": "C175",
   "status": "proved",
   "theorems": [
    "CrowdDynamics.C175_test_adaptive_timestep",
    "CrowdDynamics.C175_step_bounds",
    "CrowdDynamics.C175_test_integrators",
    "CrowdDynamics.C175_exact"
   ],
   "note": ""
  },
  {
   "property": "C176",
   "status": "partial",
   "theorems": [
    "CrowdDynamics.C176_test_linestring_sample",
    "CrowdDynamics.C176_test_triangle_area_cumsum",
    "CrowdDynamics.C176_test_random_sample_triangle",
    "CrowdDynamics.C176_test_polygon_sampling_fails",
    "CrowdDynamics.C176_test_polygon_sampling_partial"
   ],
   "note": "test_polygon_sampling is false in principle: for the random number 0 the sample is a vertex, which the polygon does not contain in the sense of shapely. Proved for nonzero numbers, in exact arithmetic. The other three tests pass for all numbers with rounding."
  },
  {
   "property": "C177",
   "status": "partial",
   "theorems": [
    "CrowdDynamics.C177_run_length_fails",
    "CrowdDynamics.C177_time_partial",
    "CrowdDynamics.C177_run_length_partial",
    "CrowdDynamics.C177_time_grows",
    "CrowdDynamics.C177_constant_step"
   ],
   "note": "The number of updates is not that of exact arithmetic: with the default step 0.01 a run until the time 10 makes 1001 updates, because the rounded sum of 1000 steps is below 10. Proved: the error of the sum after k updates, at most one update more or less, and strict growth. Missing: the exact number of updates."
  },
  {
   "property": "C178",
   "status": "partial",
   "theorems": [
    "CrowdDynamics.C178_grid_fails",
    "CrowdDynamics.C178_shape_partial",
    "CrowdDynamics.C178_valid",
    "CrowdDynamics.C178_index_partial",
    "CrowdDynamics.C178_exact"
   ],
   "note": "The number of nodes is not that of exact arithmetic: with the step 0.1 and the bounds 0 and 0.2 each axis has four nodes, not three. Proved: at most one node more or less, equality unless a side is within an eighth of a step from a whole number of steps, valid indices for all positions inside of the bounds, and nodes up to a small part of the step. Missing: the exact number of nodes."
  },
  {
   "property": "C179",
   "status": "partial",
   "theorems": [
    "CrowdDynamics.C179_motion_fails",
    "CrowdDynamics.C179_euler_partial",
    "CrowdDynamics.C179_verlet_partial",
    "CrowdDynamics.C179_free",
    "CrowdDynamics.C179_drift_partial",
    "CrowdDynamics.C179_orientation",
    "CrowdDynamics.C179_rotation_partial",
    "CrowdDynamics.C179_rotation_verlet_partial",
    "CrowdDynamics.C179_exact"
   ],
   "note": "The step is not that of exact arithmetic: an agent at (1, 0) with the velocity 2**-60 does not move at all. Proved: bounds of the error of one step for both integrators, position, velocity, orientation and angular velocity; the range of the orientation; the drift of a free agent after any number of steps. Missing: equality."
  },
  {
   "property": "C180",
   "status": "partial",
   "theorems": [
    "CrowdDynamics.C180_contact_fails",
    "CrowdDynamics.C180_distance_partial",
    "CrowdDynamics.C180_apart",
    "CrowdDynamics.C180_overlap",
    "CrowdDynamics.C180_placed",
    "CrowdDynamics.C180_refused",
    "CrowdDynamics.C180_three_partial",
    "CrowdDynamics.C180_three_placed",
    "CrowdDynamics.C180_exact",
    "CrowdDynamics.C180_example_overlap"
   ],
   "note": "The sign is not always right: circles about (1, 0) and (0, 0) with the radii 1 and 2**-54 overlap, but the computed distance is 0. Proved: a bound of the error of the distance for circles and three-circle bodies; the sign is right outside of this error; placed agents overlap by a few rounding errors at most. Missing: the sign within the error."
  },
  {
   "property": "C181",
   "status": "partial",
   "theorems": [
    "CrowdDynamics.C181_nan_fails",
    "CrowdDynamics.C181_distance_partial",
    "CrowdDynamics.C181_placed",
    "CrowdDynamics.C181_refused",
    "CrowdDynamics.C181_exact"
   ],
   "note": "The normal is not always a number: for the wall from (0, 0) to (2, 3) and an agent whose centre is (0, 0) the computed extent along the wall exceeds the computed length by one unit in the last place, so the code divides zero by zero. Proved: a bound of the error of the distance, also when rounding selects the wrong one of the three formulas, and its consequences for the test of overlap. Missing: the normal, and the sign within the error."
  },
  {
   "property": "C182",
   "status": "partial",
   "theorems": [
    "CrowdDynamics.C182_coincident",
    "CrowdDynamics.C182_unchanged",
    "CrowdDynamics.C182_tests_fails",
    "CrowdDynamics.C182_walls_partial",
    "CrowdDynamics.C182_walls_seen_partial"
   ],
   "note": "False: test_interactions.py draws an attribute named positions, but agents have position. All agents of the tests are therefore at the origin, and agents at the same place exert no force on each other: the normal is zero and the time to collision is negative (for three-circle agents because the pair of torsos is visited first and is the nearest pair). The four tests of pairs and of the block list leave the array unchanged for every draw (C182_unchanged). The two tests of walls can see a force (C182_walls_partial, C182_walls_seen_partial)."
  },
  {
   "property": "C183",
   "status": "partial",
   "theorems": [
    "CrowdDynamics.C183_relative_error_fails",
    "CrowdDynamics.C183_absolute_error_partial",
    "CrowdDynamics.C183_exact_on_grid_partial",
    "CrowdDynamics.C183_test_partial"
   ],
   "note": "The full statement (a relative error of at most one half for every polygon with a positive area) is false: C183_relative_error_fails gives a triangle with coordinates of at most 4 whose computed area is zero. Proved instead: an absolute error bound, exactness on grids, and that the test passes. The number shapely computes is a parameter constrained to be within 1e-9 of the true area; overflow is not modelled."
  },
  {
   "property": "C184",
   "status": "partial",
   "theorems": [
    "CrowdDynamics.C184_nan_fails",
    "CrowdDynamics.C184_zero_division_fails",
    "CrowdDynamics.C184_finite_partial",
    "CrowdDynamics.C184_length_partial"
   ],
   "note": "Refuted by C184_nan_fails (force NaN) and C184_zero_division_fails (ZeroDivisionError, for numba's default error_model='python'). The time to collision is positive only because the square of the approach speed is subnormal and loses its last digits; dividing by its square then overflows or divides by zero. C184_finite_partial: no such failure if coordinates, velocities and radii are multiples of 2**-60. C184_length_partial: forces with finite components respect the limit. Missing: agents whose velocities are not multiples of 2**-60, for which the failure is shown only at the two witnesses."
  },
  {
   "property": "C185",
   "status": "partial",
   "theorems": [
    "CrowdDynamics.C185_small_dtype_fails",
    "CrowdDynamics.C185_arrays_partial",
    "CrowdDynamics.C185_stored_partial",
    "CrowdDynamics.C185_bounds",
    "CrowdDynamics.C185_reals",
    "CrowdDynamics.C185_test_unit_vectors",
    "CrowdDynamics.C185_points",
    "CrowdDynamics.C185_linestrings",
    "CrowdDynamics.C185_polygons"
   ],
   "note": "Refuted for the smaller float types: reals draws numbers as float64 and stores them in an array of the given type, so that an array of float32 may contain the excluded zero and an array of float16 an infinity. C185_stored_partial bounds the error of storing for every type. The claim holds for the default float64, and the claims about unit vectors, points, line strings and polygons hold in full."
  },
  {
   "property": "C186",
   "status": "proved",
   "theorems": [
    "CrowdDynamics.C186_order",
    "CrowdDynamics.C186_unique",
    "CrowdDynamics.C186_metadata"
   ],
   "note": ""
  },
  {
   "property": "C187",
   "status": "partial",
   "theorems": [
    "CrowdDynamics.C187_stall_fails",
    "CrowdDynamics.C187_converges_partial",
    "CrowdDynamics.C187_limit_partial",
    "CrowdDynamics.C187_steady"
   ],
   "note": "False in float64: an agent that wants 1 m/s and walks at 1 - 2**-53 stays there for ever with the default time step (C187_stall_fails). Proved instead: the difference after j steps is at most 2 (1 - dt/tau)**j times the first difference plus tau/dt times 2**-43 of the speeds (C187_converges_partial), so that in the long run only rounding errors are left (C187_limit_partial); an agent at the rounded desired velocity keeps it exactly (C187_steady). Missing: the limit itself, and time steps of more than 3/10 of the relaxation time."
  },
  {
   "property": "C188",
   "status": "partial",
   "theorems": [
    "CrowdDynamics.C188_body_types",
    "CrowdDynamics.C188_stays",
    "CrowdDynamics.C188_fails",
    "CrowdDynamics.C188_turns_partial",
    "CrowdDynamics.C188_limit_partial"
   ],
   "note": "The full statement is false of the code (C188_fails): target_angular_velocity (agents.py:92-95) has the default 0 and no section of conf/body_types.cfg sets it (C188_body_types), so the adjusting torque of agents with shipped body types is only a damping of the angular velocity, and an agent that starts turned away from its direction of walking stays so for ever (C188_stays). Proved instead: with a positive target angular velocity of at most 12.5 pi (the literature has 4 pi) and tau_rot of at least 0.08 (the default is 0.2), the angle that is left shrinks geometrically, with explicit rate, from any orientation (C188_turns_partial, C188_limit_partial). Missing: shorter relaxation times and larger angular velocities, relative to the time step of 0.01."
  },
  {
   "property": "C189",
   "status": "proved",
   "theorems": [
    "CrowdDynamics.C189_speed",
    "CrowdDynamics.C189_spin",
    "CrowdDynamics.C189_alone",
    "CrowdDynamics.C189_relaxes"
   ],
   "note": ""
  },
  {
   "property": "C190",
   "status": "partial",
   "theorems": [
    "CrowdDynamics.C190_numbers_fails",
    "CrowdDynamics.C190_turn_fails",
    "CrowdDynamics.C190_fails",
    "CrowdDynamics.C190_moved_partial",
    "CrowdDynamics.C190_moved_run_partial",
    "CrowdDynamics.C190_turned_partial",
    "CrowdDynamics.C190_turned_run_partial"
   ],
   "note": "False of the code. distance.py:103 builds the arm of the second agent of a pair from the centre of the first agent, so exchanging the numbers of two agents changes the torques (C190_numbers_fails); wrap_to_pi keeps the sign of odd multiples of pi, so an agent that wants to turn round turns left or right depending on the coordinates (C190_turn_fails). Which agent of a pair comes first depends on the order of the cells and hence on the coordinates; the partial theorems allow renumbering and other orders of pairs but assume that the first agent of each pair stays the first. Proved: moved scenes lead to exactly the moved scene, and turned scenes to the turned scene if nobody wants an angular velocity (as with all shipped bodies) and everybody has a direction. Missing: agents that want to turn, and pairs whose agents change their roles."
  },
  {
   "property": "C191",
   "status": "partial",
   "theorems": [
    "CrowdDynamics.C191_fails",
    "CrowdDynamics.C191_group_partial",
    "CrowdDynamics.C191_single_partial",
    "CrowdDynamics.C191_horizon_partial"
   ],
   "note": "False of the code: distance.py:103 builds the arm of the second agent of a pair from the centre of the first (see C123), so the torques on two touching agents depend on which of them the cell lists mention first, and nothing keeps this order the same in another crowd (C191_fails: two agents that rub against each other, listed as (0, 1) or as (1, 0)). The partial theorems add the condition that the pairs within the group are mentioned in the same roles; for a single agent the condition is void (C191_single_partial)."
  },
  {
   "property": "C192",
   "status": "partial",
   "theorems": [
    "CrowdDynamics.C192_fails",
    "CrowdDynamics.C192_no_jump_partial"
   ],
   "note": "False of the code: neither the velocity nor the angular velocity of an agent is limited, and the integrator does not look at walls; the torso of an agent with 100 m/s half a metre in front of a wall is on the other side after one update (C192_fails). With bounded disturbances (C189) the steps of torso and shoulders are bounded, and circles with a larger radius do not pass a wall they do not touch (C192_no_jump_partial)."
  },
  {
   "property": "C193",
   "status": "proved",
   "theorems": [
    "CrowdDynamics.C193_leader",
    "CrowdDynamics.C193_leader_same",
    "CrowdDynamics.C193_herd",
    "CrowdDynamics.C193_herd_same"
   ],
   "note": ""
  },
  {
   "property": "C194",
   "status": "proved",
   "theorems": [
    "CrowdDynamics.C194_progress",
    "CrowdDynamics.C194_alone",
    "CrowdDynamics.C194_leaves"
   ],
   "note": ""
  },
  {
   "property": "C195",
   "status": "proved",
   "theorems": [
    "CrowdDynamics.C195_momentum"
   ],
   "note": ""
  },
  {
   "property": "C196",
   "status": "partial",
   "theorems": [
    "CrowdDynamics.C196_movement_partial",
    "CrowdDynamics.C196_ends_partial",
    "CrowdDynamics.C196_standoff",
    "CrowdDynamics.C196_interaction_fails",
    "CrowdDynamics.C196_fails"
   ],
   "note": "False of the code: if the random forces push both circular agents along the line on which they walk, equally strongly and towards opposite sides (all of them zero, for instance), the agents stop each other and never pass, for any number of updates; the first one stays between -2.9 and 2.305 metres, so that test_agent_interaction, which demands 8 metres, fails (C196_standoff, C196_interaction_fails, C196_fails). Proved: test_movement passes for both types of agents, the agent walks exactly ten metres; the run of the interaction test always ends after 1000 updates without an exception. Missing: whether the interaction test passes for other draws, for instance with sideways random forces, and for three-circle agents."
  },
  {
   "property": "C197",
   "status": "partial",
   "theorems": [
    "CrowdDynamics.C197_no_swap_partial",
    "CrowdDynamics.C197_untouched_partial",
    "CrowdDynamics.C197_fails"
   ],
   "note": "Nothing in the code limits the speed of an agent, and the social force is capped at 2000 N, so a fast agent (100 m/s in the witness) passes through another one in one update. What holds: two agents keep their sides if what they can move in an update (with the speed limit of C130) is less than the sum of their radii; while they touch nothing the forces are bounded by the code (2000 N per other agent). Missing: a bound for agents in contact, whose contact forces have no limit."
  },
  {
   "property": "C198",
   "status": "partial",
   "theorems": [
    "CrowdDynamics.C198_agents_partial",
    "CrowdDynamics.C198_walls_partial",
    "CrowdDynamics.C198_body_walls_partial",
    "CrowdDynamics.C198_pulled_together_fails",
    "CrowdDynamics.C198_fails"
   ],
   "note": "False of the code: the damping term of force_contact has the sign of the velocity along the normal, so it amplifies an approach. With the constants of the code an overlap of 1 mm repels only below 0.24 m/s; two pedestrians who walk towards each other with 1.3 m/s each are pulled together at the first touch. Proved: the exact condition damping * approach speed <= mu * overlap for agents and walls, and that the tangential part is friction. Missing: faster approaches."
  },
  {
   "property": "C199",
   "status": "partial",
   "theorems": [
    "CrowdDynamics.C199_free_partial",
    "CrowdDynamics.C199_fails"
   ],
   "note": "False of the code: because the damping term adds energy, a pedestrian who stumbles in a corridor of 60 cm width (body 50 cm wide, 80 kg, constants of the code, wants to stand still) gets from 1.3 m/s to more than 4 m/s within 567 updates. Proved: without contact the speed only decreases, with a rate. Missing: contacts with walls."
  },
  {
   "property": "C200",
   "status": "partial",
   "theorems": [
    "CrowdDynamics.C200_first_contact_partial",
    "CrowdDynamics.C200_fails"
   ],
   "note": "False of the code: the pedestrian of C199 passes through the wall of the corridor in update 567 (after 5.67 seconds). The run is computed exactly, in rational numbers, from the proved equations of motion. Proved: no wall is passed up to and including the update that leads to the first contact. Missing: what happens after the first contact."
  },
  {
   "property": "C201",
   "status": "partial",
   "theorems": [
    "CrowdDynamics.C201_no_swap_partial",
    "CrowdDynamics.C201_untouched_partial",
    "CrowdDynamics.C201_fails"
   ],
   "note": "Nothing in the code limits the speed of an agent, so the torso of a fast agent (100 m/s in the witness) passes through that of another one in one update. What holds: two circles keep their sides if what they can move in an update (with the limits of speed and angular velocity of C189) is less than the sum of their radii; for torsos the forces are bounded by the code as long as no circle touches anything (2000 N per other agent). Missing: bounds for agents in contact, whose contact forces have no limit, and for shoulders, since the torques of social forces use wrong arms (C123) and are not small."
  },
  {
   "property": "C202",
   "status": "proved",
   "theorems": [
    "CrowdDynamics.C202_stopped",
    "CrowdDynamics.C202_shipped"
   ],
   "note": ""
  },
  {
   "property": "C203",
   "status": "partial",
   "theorems": [
    "CrowdDynamics.C203_wall_fails",
    "CrowdDynamics.C203_pair_fails",
    "CrowdDynamics.C203_finite_partial"
   ],
   "note": "False of the code: distance_circle_line divides zero by zero when the centre of an agent is an end of a wall and rounding makes the extent along the wall larger than its length, and interaction_agent_circular_obstacle adds the NaN to the force; the NaN of the social force of C184 also reaches the column force. Proved for attributes that are multiples of 2**-60 and centres off the ends of walls. Missing: three-circle agents, and floats that are no such multiples."
  },
  {
   "property": "C204",
   "status": "proved",
   "theorems": [
    "CrowdDynamics.C204_timestep",
    "CrowdDynamics.C204_finite",
    "CrowdDynamics.C204_refines",
    "CrowdDynamics.C204_lost",
    "CrowdDynamics.C204_others"
   ],
   "note": ""
  },
  {
   "property": "C205",
   "status": "proved",
   "theorems": [
    "CrowdDynamics.C205_no_force",
    "CrowdDynamics.C205_pairs",
    "CrowdDynamics.C205_removed",
    "CrowdDynamics.C205_finite"
   ],
   "note": ""
  },
  {
   "property": "C206",
   "status": "proved",
   "theorems": [
    "CrowdDynamics.C206_update",
    "CrowdDynamics.C206_beside_lost"
   ],
   "note": ""
  },
  {
   "property": "C207",
   "status": "partial",
   "theorems": [
    "CrowdDynamics.C207_rattles_partial",
    "CrowdDynamics.C207_fails"
   ],
   "note": "The claim is false of the code (C207_fails): the damping term of force_contact has the wrong sign, so an agent who presses against a wall rattles against it without end. C207_rattles_partial shows this for all bodies of ordinary size with the constants of the code, and what remains true (the agent stays at the wall). Not covered: other constants, a random force, three-circle agents, and several walls at once."
  },
  {
   "property": "C208",
   "status": "proved",
   "theorems": [
    "CrowdDynamics.C208_stopped",
    "CrowdDynamics.C208_returns",
    "CrowdDynamics.C208_finite"
   ],
   "note": ""
  },
  {
   "property": "C209",
   "status": "proved",
   "theorems": [
    "CrowdDynamics.C209_symmetry",
    "CrowdDynamics.C209_overflow",
    "CrowdDynamics.C209_walls"
   ],
   "note": ""
  },
  {
   "property": "C210",
   "status": "proved",
   "theorems": [
    "CrowdDynamics.C210_mirror",
    "CrowdDynamics.C210_no_drift"
   ],
   "note": ""
  },
  {
   "property": "C211",
   "status": "partial",
   "theorems": [
    "CrowdDynamics.C211_fails",
    "CrowdDynamics.C211_order_partial",
    "CrowdDynamics.C211_single_partial"
   ],
   "note": "False of the code, witness proved (C211_fails): an agent with the force -17/64 on it has a neighbour that adds 17/64 and one that adds -2^-56; if the weak push comes first it is lost in rounding, otherwise it is what remains. So simulations with renumbered agents are not the same digit by digit. C211_order_partial bounds the difference, C211_single_partial shows equality for agents with a single neighbour."
  },
  {
   "property": "C212",
   "status": "proved",
   "theorems": [
    "CrowdDynamics.C212_numbering"
   ],
   "note": ""
  },
  {
   "property": "C213",
   "status": "proved",
   "theorems": [
    "CrowdDynamics.C213_pair",
    "CrowdDynamics.C213_run",
    "CrowdDynamics.C213_numbering"
   ],
   "note": ""
  },
  {
   "property": "C214",
   "status": "proved",
   "theorems": [
    "CrowdDynamics.C214_partners",
    "CrowdDynamics.C214_symmetric",
    "CrowdDynamics.C214_single_file"
   ],
   "note": ""
  },
  {
   "property": "C215",
   "status": "proved",
   "theorems": [
    "CrowdDynamics.C215_no_force",
    "CrowdDynamics.C215_run",
    "CrowdDynamics.C215_removed",
    "CrowdDynamics.C215_normal"
   ],
   "note": ""
  }
 ]
}