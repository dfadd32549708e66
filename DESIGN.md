# Design of the formal model of crowddynamics

This document says what is modelled, how each property of `properties.jsonl`
is proved, and what has to be trusted.

## Layout

| Directory | Content |
|---|---|
| `lean/Verif/Model/` | Model of the Python code, function by function. Every definition cites file and lines in `/repo`. |
| `lean/Verif/Spec/` | Small specifications that do not use the model's helper functions. |
| `lean/Verif/Proofs/` | Helper lemmas. |
| `lean/Verif/Props/` | The property theorems (named `Cxx_…`), each with an `example` that meets its hypotheses. |

A theorem whose name ends in `_partial` proves only part of the property it
belongs to; its comment says what is missing. A theorem whose name ends in
`_fails` proves that the code does **not** have the property, by an explicit
witness.

## Modelling decisions

* **Numbers.** `float64` values are modelled as exact real numbers `ℝ` (or, for
  the block list, as elements of an arbitrary ordered field with a floor
  function). Overflow and signed zero are not modelled. Rounding is modelled
  for the functions of `Model/Rounded.lean` only (C162 to C169), which repeat
  their exact models with one rounding to `float64` (nearest, ties to even,
  gradual underflow) after each operation; that CPython, numba and numpy round
  in this way, do not fuse operations, and compute `%` and `//` by the algorithm
  of `float_divmod` is trusted. All other theorems speak about exact
  arithmetic. NaN is
  modelled by `none : Option ℝ` in exactly those functions where the Python
  code tests for NaN or can produce it (`h_min`, `tau`, degenerate walls,
  direction maps). `np.hypot` is `√(x²+y²)`, `%` is `a - b⌊a/b⌋`, `np.arctan2`
  is the argument of a complex number.
* **Vectors** are pairs `ℝ × ℝ`, so that Mathlib's `segment` and `convexHull`
  can be used in specifications.
* **Agent arrays** are functions `Fin n → Agent` when code updates rows in place
  and lists when code grows the array. The structured dtype is a record with
  all fields of the circular and the three-circle type.
* **Loops** are folds over lists or structural recursion. Random number
  generators, position generators and argsort are inputs of the model, and the
  theorems quantify over all of their results that satisfy the documented
  contract.
* **Exceptions** are values (`Except`), and state at the time of the exception is
  kept when the property is about it.
* **Python object identity** matters for `euler_integrator` (dtype identity),
  for `save_npy` (aliasing of buffered arrays), for lazily cached trait defaults
  and for late-binding closures; in these models references are explicit.

## Trusted base

* The Lean 4 kernel and Mathlib. Theorems may depend on the three standard
  axioms `propext`, `Classical.choice` and `Quot.sound` only (see Axioms below).
* That the model mirrors the cited Python lines. Nothing was executed.
* The following third-party contracts, which appear as explicit hypotheses or
  as parameters of the model and are *not* proved:
  * `cell_lists` (`add_to_cells`, `neighboring_cells`,
    `iter_nearest_neighbors`): enumerates unordered index pairs, each once, and
    includes every pair whose cells are equal or adjacent.
  * `numpy.argsort` returns a permutation that sorts its argument (any order on
    ties); `numpy.searchsorted` is the binary search for the left position;
    `np.arange(a, b, s)` has `⌈(b-a)/s⌉` entries `a + i*s`.
  * `scipy.stats.truncnorm(start, end, loc, scale)` returns values in
    `[loc + start*scale, loc + end*scale]`; `np.random.rand` returns values in
    `[0, 1)`; `np.random.exponential` returns values `≥ 0`.
  * traitlets 4.3.2: `@default` values are computed at first access and cached;
    observers run after the value is stored, and only when it changed;
    `HasTraits.__init__` holds notifications until all keyword arguments are set.
  * anytree 2.1.4: setting `parent` detaches the node and appends it to the
    children of the new parent; `PostOrderIter`/`PreOrderIter` are the usual
    traversals; `children` returns a snapshot tuple.
  * shapely, scikit-image, scikit-fmm, scipy Delaunay/Voronoi, matplotlib
    `Path.contains_points`, `csv`, `json`, `os.walk`: used through parameters.
* What is modelled: the functions listed in `COVERAGE.md`, each with the
  definitions that cite its lines. The same file ends with the list of functions
  that are not modelled. These are: the generated version scripts
  (`_version.py`, `versioneer.py`), logging set-up, hypothesis strategies for
  tests (`testing.py`, `conftest.py`), string representations, base classes and
  exceptions without a body, and functions that only return or raise
  `NotImplementedError` (`travel_time_map`, `subgroups.py`, `orientation()`,
  `Capsule`). numba compilation is not modelled: a jitted function is taken to
  compute what its Python source says, except where the absence of bounds checks
  matters (then out-of-range reads give an arbitrary value).

## Axioms

`AXIOMS.txt` lists for every theorem of `MANIFEST.json` the axioms that Lean
reports for it. Only `propext`, `Classical.choice` and `Quot.sound` occur. There
is no `sorry`, no `native_decide`, no `bv_decide` and no axiom of our own.

## Wrong programs

`seeded/LOG.jsonl` records the edits of the model that were tried in a scratch
copy, the theorems that then failed to build and, where an edit got past all
theorems although it breaks a claim, the theorems that were tightened or added.


## Properties

For each property: what is modelled and how it is proved. Where the code does
not have the property the line starting with **Disagreement** says so; a theorem
ending in `_fails` (or `_error`) proves it with a concrete witness, and the
theorems ending in `_partial` prove what does hold.

### C01 Angle wrapping lands in [-pi, pi] and never changes the angle

wrap_to_pi(x) is in [-pi, pi], differs from x by an integer multiple of 2*pi, sends odd positive multiples of pi to pi and odd negative multiples to -pi, is an odd function, and is idempotent.

* Modelled: `vector2D.wrap_to_pi`.
* Proof: arithmetic of the floor function; congruence modulo 2π by an explicit integer.
* Theorems: `C01_wrap_range`, `C01_wrap_congruent`, `C01_wrap_odd_multiples`, `C01_wrap_fixes_range`, `C01_wrap_idempotent`, `C01_wrap_neg`.

### C02 Vector helpers obey the Euclidean laws the force code relies on

rotate90/rotate270 are mutually inverse isometries perpendicular to their argument; normalize returns a vector of length 1 with the same direction (the zero vector is returned unchanged); truncate(v, l) leaves v if |v| <= l and otherwise gives a vector of length exactly l in the same direction.

* Modelled: `vector2D`: rotate, length, dot, cross, normalize, truncate.
* Proof: algebra of √ and of sums of squares.
* Theorems: `C02_rotate_inverse`, `C02_rotate_isometry`, `C02_length_dot_cross`, `C02_normalize_unit`, `C02_normalize_zero`, `C02_truncate_short`, `C02_truncate_long`.

### C03 Angles and unit vectors are inverse representations

angle(unit_vector(phi)) equals wrap_to_pi(phi) (up to the -pi/pi representative), unit_vector(phi) has length 1, angle(v) is in (-pi, pi], and unit_vector(angle(v)) equals normalize(v) for v nonzero.

* Modelled: `vector2D`: unit_vector, angle (as the argument of a complex number).
* Proof: `Complex.arg` lemmas.
* Theorems: `C03_unit_vector_length`, `C03_angle_range`, `C03_angle_unit_vector`, `C03_unit_vector_angle`.

### C04 weighted_average returns a unit vector (documented normalisation)

The documentation of weighted_average states that the weighted mean of two unit vectors is normalised to a unit vector.

* Modelled: `vector2D.weighted_average`.
* Proof: witness with opposite vectors; triangle inequality for the bound.
* Theorems: `C04_weighted_average_unit_fails`, `C04_weighted_average_partial`.
* **Disagreement**: The code does not normalise (C04_weighted_average_unit_fails); proved: the result is the convex combination, of length at most 1.

### C05 polygon_area is the shoelace area and a geometric invariant

polygon_area is half the absolute shoelace sum, is nonnegative, 0 below three vertices, unchanged by translation, rotation, reversal, and by starting the vertex list elsewhere, scales quadratically, and is additive when a polygon is cut along a diagonal (signed area).

* Modelled: `geom2D.polygon_area`.
* Proof: induction over the vertex list; invariance under affine maps, rotation of the list, reversal, cutting.
* Theorems: `C05_polygon_area_shoelace`, `C05_polygon_area_nonneg`, `C05_polygon_area_triangle`, `C05_polygon_area_affine`, `C05_polygon_area_rotate`, `C05_polygon_area_reverse`, `C05_polygon_area_cut`.

### C06 line_intersect decides whether two segments meet

line_intersect(x0, x1, y0, y1) is True exactly when the closed segments [x0,x1] and [y0,y1] share a point, and the answer does not depend on the order of segments or endpoints.

* Modelled: `geom2D.line_intersect`.
* Proof: exact solution of the 2×2 system compared with `segment ∩ segment`.
* Theorems: `C06_line_intersect_sound`, `C06_line_intersect_exact_partial`, `C06_line_intersect_parallel`, `C06_line_intersect_collinear_fails`, `C06_line_intersect_symm`.
* **Disagreement**: Exact for non-parallel segments; false for collinear overlapping segments (C06_line_intersect_collinear_fails).

### C07 Line of sight is blocked exactly when some obstacle crosses it

is_obstacle_between_points(p0, p1, obstacles) is True iff some obstacle segment (not parallel to the line of sight) meets the segment p0-p1; it is symmetric in p0/p1, independent of the order of obstacles, and monotone when obstacles are added.

* Modelled: `sensory_region.is_obstacle_between_points`.
* Proof: the loop is `any` over the obstacles; specification by segments that meet.
* Theorems: `C07_obstacle_between_iff`, `C07_obstacle_between_symm`, `C07_obstacle_between_mono`, `C07_obstacle_between_trivial`.

### C08 distance_circles is the exact skin-to-skin distance

The returned h is |x0-x1| - (r0+r1): negative exactly when the open discs overlap; exchanging the circles keeps h and negates the normal, and the normal is a unit vector unless the centres coincide, in which case it is zero.

* Modelled: `distance.py` for circular and three-circle agents.
* Proof: minimum over the explicit list of circle pairs; comparison with `Spec.dist`.
* Theorems: `C08_circles_distance`, `C08_circles_overlap_iff`, `C08_circles_normal`, `C08_circles_normal_coinciding`, `C08_circles_swap`.

### C09 distance_three_circles is the minimum over all nine circle pairs, with the documented moment arms

The returned h is the least of the nine pairwise skin distances, attained by a pair (i, j) whose unit normal n is returned; the moment arms are, as documented, x0[i] + r0[i]*n - x0[torso] and x1[j] - r1[j]*n - x1[torso]; h does not depend on the order of the agents.

* Modelled: `distance.py` for circular and three-circle agents.
* Proof: minimum over the explicit list of circle pairs; comparison with `Spec.dist`.
* Theorems: `C09_three_circles_partial`, `C09_three_circles_symm`, `C09_three_circles_moment_fails`.
* **Disagreement**: Distance, normal and first arm are proved; the arm of the second agent is off by x0[j]-x1[j] (C09_three_circles_moment_fails).

### C10 distance_circle_line is the Euclidean distance to the wall segment minus the radius

For a wall with distinct endpoints h + r equals the minimum distance from the centre to any point of the closed segment, and the normal is the unit vector from the closest wall point to the centre (zero if the centre is on the wall).

* Modelled: `distance.distance_circle_line`.
* Proof: projection on a segment; infimum distance to the segment as a set.
* Theorems: `C10_circle_line_distance`, `C10_circle_line_degenerate`.

### C11 distance_three_circle_line is the minimum over torso and shoulders

The returned h is the least of the three circle-wall skin distances, and the moment arm is the vector from the torso centre to the contact point on the minimising circle.

* Modelled: `distance.py` for circular and three-circle agents.
* Proof: minimum over the explicit list of circle pairs; comparison with `Spec.dist`.
* Theorems: `C11_three_circle_line`, `C11_three_circle_line_degenerate`.

### C12 Block list: nearest() returns exactly the stored values in the surrounding cells, each once

After any history of insertions and queries, nearest(p, radius) returns, as a multiset, exactly the values inserted at points whose cell index differs from that of p by at most radius in every coordinate, and lookups never change what later lookups return.

* Modelled: `block_list.py`.
* Proof: refinement: the nested dictionary represents the log of insertions, for every history; floor arithmetic for completeness.
* Theorems: `C12_nearest_exact`, `C12_getitem_exact`, `C12_lookup_pure`, `C12_init`.

### C13 Block list: no point within the search distance is ever missed

Every value stored at a point whose coordinates each differ from those of p by at most radius*cell_size is in nearest(p, radius), and every returned value was stored at a point closer than (radius+1)*cell_size in each coordinate.

* Modelled: `block_list.py`.
* Proof: refinement: the nested dictionary represents the log of insertions, for every history; floor arithmetic for completeness.
* Theorems: `C13_nearest_complete`, `C13_nearest_sound`.

### C14 Circular agents are placed without overlaps

After any sequence of add_non_overlapping_group calls for circular agents, no two placed agents overlap and no placed agent overlaps an obstacle, provided the sum of any two radii is at most the cell size given to Agents.

* Modelled: `agents.py` placement loop (`add_non_overlapping_group`).
* Proof: invariant by induction over the attempts, for every generator.
* Theorems: `C14_agents_disjoint`, `C14_clear_of_obstacles`.

### C15 Agents never overlap whatever their size

Agents placed with add_non_overlapping_group do not overlap, whatever radii the group attributes specify.

* Modelled: `agents.py` placement loop (`add_non_overlapping_group`).
* Proof: invariant by induction over the attempts, for every generator.
* Theorems: `C15_any_radius_fails`, `C15_any_radius_partial`.
* **Disagreement**: False: two agents of radius 1 are placed 1.3 apart with the default cell size (C15_any_radius_fails); proved if the cell size is at least twice the largest radius.

### C16 Shipped body types are safe with the default placement cell size and interaction cell size

Every radius that the shipped body types can be assigned is positive and at most 0.29, all three circles of such an agent lie within that radius of its centre, hence two such agents that overlap have centres within the default cell size 0.6 and two that interact have centres within the default interaction cell size 3.6.

* Modelled: `agents.py` body type tables.
* Proof: the tables are transcribed; ranges by arithmetic for all values of the truncated normal distribution.
* Theorems: `C16_shipped_values`, `C16_body_within`, `C16_default_cells`, `C16_placed_disjoint`, `C16_interactions_complete`, `C16_unknown_name`.

### C17 Placement always terminates and its bookkeeping is exact, even if it is interrupted

add_non_overlapping_group asks for at most 11*size positions, places at most size agents, stops early only after 10*size rejected positions, grows the array by exactly size rows, leaves previously placed agents untouched, and if the position generator raises part way the agents placed so far remain valid and indexed.

* Modelled: `agents.py` placement loop (`add_non_overlapping_group`).
* Proof: invariant by induction over the attempts, for every generator.
* Theorems: `C17_bookkeeping`, `C17_type_mismatch`, `C17_rows`, `C17_positions`.

### C18 Three-circle agents are placed with their shoulders attached and without overlaps

After placement every three-circle agent has its shoulders at distance r_ts on both sides of its position, and no two placed agents overlap.

* Modelled: three-circle placement with cached trait defaults.
* Proof: state machine with explicit caches; invariant over all attempts.
* Theorems: `C18_shoulders_attached_fails`, `C18_no_overlap_fails`, `C18_shoulders_attached_partial`, `C18_no_overlap_partial`, `C18_body_within_partial`.
* **Disagreement**: False when a candidate position is rejected: cached shoulders stay at the first candidate (two counterexamples). Proved: without rejections shoulders are attached; bodies that lie within ea, eb of their positions with ea+eb <= cell size never overlap, for every history.

### C19 The adaptive time step always lies in [dt_min, dt_max]

adaptive_timestep returns a value in [dt_min, dt_max], returns dt_max when nobody moves (or there is nobody), never lets an agent move further than 1.1 times the largest target speed times dt_max unless the lower bound dt_min applies, and does not depend on the order of agents.

* Modelled: `integrator.adaptive_timestep`.
* Proof: order arithmetic; permutation of the maximum.
* Theorems: `C19_timestep_bounds`, `C19_timestep_rest`, `C19_timestep_value`, `C19_step_length`, `C19_timestep_perm`.

### C20 The Euler integrator is exact for constant acceleration

With constant force the Euler step gives exactly x + v*dt + a*dt^2/2 and v + a*dt, so n steps of size dt equal one step of size n*dt; mass, radii and targets are never changed.

* Modelled: `integrator.py` Euler and Verlet.
* Proof: induction over the list of time steps.
* Theorems: `C20_euler_exact`, `C20_euler_rotation`, `C20_euler_integrator`.

### C21 The velocity Verlet integrator is exact for constant acceleration

Velocity Verlet integration reproduces x + v*t + a*t^2/2 and v + a*t exactly for constant acceleration.

* Modelled: `integrator.py` Euler and Verlet.
* Proof: induction over the list of time steps.
* Theorems: `C21_verlet_exact_fails`, `C21_verlet_exact_partial`, `C21_verlet_error_partial`, `C21_verlet_velocity_partial`.
* **Disagreement**: False: the position update uses the already updated velocity (C21_verlet_exact_fails). Proved: the velocity is exact and the position error is exactly acc * sum dt^2 for every sequence of steps.

### C22 Orientation stays in [-pi, pi] and shoulders stay attached

After every velocity Verlet step of three-circle agents each orientation is in [-pi, pi], the shoulder midpoint is the agent position, each shoulder is at distance r_ts from it and the shoulder axis is perpendicular to the heading, whatever forces and torques were applied.

* Modelled: `integrator.py` Euler and Verlet.
* Proof: induction over the list of time steps.
* Theorems: `C22_verlet_shoulders`, `C22_verlet_init_shoulders`.

### C23 Both integrators rotate three-circle agents

For an array of three-circle agents created through Agents, euler_integrator and velocity_verlet_integrator both advance orientation and shoulders.

* Modelled: `integrator.py` Euler and Verlet.
* Proof: induction over the list of time steps.
* Theorems: `C23_euler_rotates_fails`, `C23_euler_frozen_partial`, `C23_rotates_partial`.
* **Disagreement**: False for euler_integrator on arrays created through Agents (dtype compared with 'is'); proved for the Verlet integrator and for the module constant dtype.

### C24 Time to collision is exactly the first time the two discs touch

If time_to_collision_circle_circle reports tau then at time tau the centres are exactly r_tot apart and, when tau > 0, they are farther apart at every earlier nonnegative time; if the discs are apart and their straight-line motion ever makes them overlap, a positive tau is reported.

* Modelled: `power_law.time_to_collision_circle_circle`.
* Proof: roots of the quadratic; first contact as the least element of a set of times.
* Theorems: `C24_reported_time_is_first_touch`, `C24_reported_iff`.

### C25 The circular social force is the negative gradient of the anticipation energy, capped

Whenever force_social_circular returns a nonzero force it is the vector -m*grad_x(k/tau^2*exp(-tau/tau_0)) of the documented interaction energy, truncated to length at most F_SOC_MAX = 2000; it is zero when no collision is predicted within 30 s.

* Modelled: `power_law.py` forces.
* Proof: `HasDerivAt`/`HasFDerivAt` of the energy along lines.
* Theorems: `C25_social_force_is_energy_gradient`, `C25_potential`, `C25_zero_without_collision`, `C25_force_bounded`.

### C26 Social forces obey Newton's third law and Galilean invariance

For agents with equal mass, k and tau_0 the two social forces are exactly opposite; in every case they are antiparallel, swapping the agents swaps the forces, and adding a common velocity or displacement changes nothing.

* Modelled: `power_law.py` for pairs of agents.
* Proof: case analysis over the nine circle pairs; fold invariant for the minimum search.
* Theorems: `C26_circular_third_law`, `C26_circular_antiparallel`, `C26_circular_swap`, `C26_circular_galilean`, `C26_three_circle_third_law`, `C26_three_circle_antiparallel`, `C26_three_circle_galilean`, `C26_three_circle_swap_fails`, `C26_three_circle_swap_partial`.
* **Disagreement**: Proved for circular agents (third law, antiparallel, swap, Galilean invariance) and for three-circle agents except the exchange of the two agents, which is refuted by a concrete pair (C26_three_circle_swap_fails): the search over circle pairs can stop at a contact in the past in one order only. Missing: exchange when the collision is dropped in one order or several pairs tie.

### C27 Three-circle social force reacts to the earliest predicted contact

If some pair of circles of the two agents will collide, force_social_three_circle reacts to the earliest positive collision time among the nine pairs.

* Modelled: `power_law.py` for pairs of agents.
* Proof: case analysis over the nine circle pairs; fold invariant for the minimum search.
* Theorems: `C27_nonzero_force_earliest_partial`, `C27_torsos_collide_partial`, `C27_zero_without_collision`, `C27_earliest_contact_fails`.
* **Disagreement**: Refuted by a concrete pair of agents: a pair of circles whose contact lies in the past stops the search. Proved: a nonzero force reacts to the earliest contact; so does the force if the torsos are on a collision course; no future contact means no force.

### C28 Contact forces repel, friction dissipates and damping damps

For overlapping bodies (h < 0) the elastic part of force_contact pushes along the normal, the friction part never adds kinetic energy, and the damping part never adds kinetic energy.

* Modelled: `contact.py`.
* Proof: inner products of the three parts of the force.
* Theorems: `C28_damping_accelerates_fails`, `C28_parts_partial`, `C28_elastic_pushes_partial`, `C28_friction_dissipates_partial`, `C28_damping_power_partial`, `C28_overlapping_pushed_apart_partial`.
* **Disagreement**: Elastic part repels and friction dissipates (proved). The damping part is added with the sign that accelerates separating/approaching bodies along their motion: its power is damping*(v.n)^2 >= 0, so 'damping damps' is refuted by a concrete witness. The shipped default for damping is 500, so this is reachable.

### C29 Agent-agent interactions conserve momentum and do not depend on pair order

For agents with equal physical parameters one pass of agent-agent interactions leaves the sum of all forces unchanged; the resulting forces do not depend on the order in which pairs are visited; nothing but force (and torque) is changed.

* Modelled: `interactions.py`.
* Proof: the loop is a fold of additive contributions; sums over pairs do not depend on the order; frame conditions for all other fields.
* Theorems: `C29_circular_momentum`, `C29_threeCircle_momentum`, `C29_pair_order`, `C29_circular_frame`, `C29_threeCircle_frame`.

### C30 The cell-list shortcut equals the all-pairs computation

Visiting only the pairs produced by the cell list gives the same forces and torques as visiting all pairs, provided the cell size is at least 3 plus the sum of the two largest radii; pairs farther apart than the sight distance 3 have no effect.

* Modelled: `interactions.py`.
* Proof: the loop is a fold of additive contributions; sums over pairs do not depend on the order; frame conditions for all other fields.
* Theorems: `C30_circular_far`, `C30_threeCircle_far`, `C30_circular_cells`, `C30_threeCircle_cells`.

### C31 Wall interactions act only on touching agents and do not depend on order

agent_obstacle adds to each agent exactly the sum of the contact forces (and torques) of the walls it overlaps, independent of wall and agent order; agents that overlap no wall are unchanged.

* Modelled: `interactions.py`.
* Proof: the loop is a fold of additive contributions; sums over pairs do not depend on the order; frame conditions for all other fields.
* Theorems: `C31_circular_walls`, `C31_threeCircle_walls`, `C31_wall_order`, `C31_agent_order`, `C31_clear_unchanged`, `C31_wall_repels`.

### C32 Adjusting force relaxes towards the desired velocity; adjusting torque turns the short way

The adjusting force vanishes exactly at the desired velocity and an explicit step of size dt in [0, tau] never increases the distance to it; without spin the adjusting torque vanishes exactly at the target orientation, at the target orientation it vanishes exactly without spin, it is odd under mirroring, is bounded and aims at turning through the shortest angle in [-pi, pi].

* Modelled: `adjusting.py`, `fluctuation.py`.
* Proof: algebra and wrap lemmas; truncated normal as a value in its range.
* Theorems: `C32_force_zero_iff`, `C32_force_relaxes`, `C32_torque_short_way`, `C32_torque_zero_iff`, `C32_torque_mirror`, `C32_torque_bounded`, `C32_adjusting_rows`.

### C33 Random fluctuation is bounded

The fluctuation force on an agent never exceeds 3*mass*std_rand_force and the fluctuation torque never exceeds 3*inertia*std_rand_torque in absolute value.

* Modelled: `adjusting.py`, `fluctuation.py`.
* Proof: algebra and wrap lemmas; truncated normal as a value in its range.
* Theorems: `C33_truncnorm_range`, `C33_random_vector`, `C33_fluctuation_bounded`.

### C34 Exit capacity is a monotone step function

narrow_exit_capacity is nonnegative, zero when the door is narrower than an agent, nondecreasing in door width, nonincreasing in agent diameter, a whole multiple of the coefficient, and the layered form with layer width equal to the agent diameter agrees with the simple form.

* Modelled: `evacuation.py`.
* Proof: floor monotonicity; permutation contract of argsort; fold invariant.
* Theorems: `C34_steps`, `C34_monotone`, `C34_layer_eq_agent`.

### C35 agent_closer_to_exit counts the agents that are closer

For agents with pairwise different distances the returned number of each agent is exactly the number of agents strictly closer to the exit; in general the result is a permutation of 0..n-1 compatible with the distances.

* Modelled: `evacuation.py`.
* Proof: floor monotonicity; permutation contract of argsort; fold invariant.
* Theorems: `C35_rank`, `C35_count_closer`.

### C36 Exit detection picks the nearest visible exit in range

exit_detection selects for every agent the closest exit that is strictly within the detection range and not hidden by an obstacle, the lowest index on ties, and reports none exactly when there is no such exit.

* Modelled: `evacuation.py`.
* Proof: floor monotonicity; permutation contract of argsort; fold invariant.
* Theorems: `C36_nearest`, `C36_node`.

### C37 poisson_clock yields exactly the ticks before dt; poisson_timings orders all ticks

poisson_clock yields in increasing order exactly the partial sums of the drawn intervals that are smaller than dt; poisson_timings yields every agent as many times as its clock ticks in nondecreasing tick time.

* Modelled: `rand.py`.
* Proof: induction over the drawn waiting times; termination when their sum exceeds the interval.
* Theorems: `C37_clock_ticks`, `C37_clock_terminates`, `C37_timings_sorted`, `C37_timings_terminate`.

### C38 Sampled points lie inside the triangle / polygon / segment

random_sample_triangle returns a point of the closed triangle, random_sample_line a point of the segment, polygon_sample a point of the convex hull of the polygon vertices, and linestring_sample a point of the line string.

* Modelled: `sampling.py`.
* Proof: convex combinations; binary search; Lebesgue measure of the preimage of each set.
* Theorems: `C38_line`, `C38_triangle`, `C38_linestring`, `C38_polygon`.

### C39 polygon_sample chooses triangles with probability proportional to area

The set of random numbers in [0,1) for which polygon_sample chooses a given triangle of its mesh is an interval of length area/total area; the chosen index is always valid.

* Modelled: `sampling.py`.
* Proof: convex combinations; binary search; Lebesgue measure of the preimage of each set.
* Theorems: `C39_probability`, `C39_valid`.

### C40 linestring_sample samples all parts of a line string

linestring_sample chooses each segment of the line string with probability proportional to its length.

* Modelled: `sampling.py`.
* Proof: convex combinations; binary search; Lebesgue measure of the preimage of each set.
* Theorems: `C40_sorted_partial`, `C40_linestring_fails`, `C40_never_chosen_fails`, `C40_single_partial`.
* **Disagreement**: The segment weights are handed to searchsorted without being accumulated. C40_linestring_fails and C40_never_chosen_fails refute the claim; the partial theorems cover the case in which the weights happen to be sorted cumulatively and the single-segment case.

### C41 Neighbour search returns the k nearest visible agents

find_nearest_neighbors returns for each agent the k nearest agents that are within sight and not hidden by an obstacle (all of them, padded, if fewer than k).

* Modelled: `steering/collective_motion.py`, `logic.py` LeaderFollower.
* Proof: fold invariant for the streaming search of the k nearest; case analysis.
* Theorems: `C41_nearest`, `C41_all_if_few`, `C41_zero_raises`.

### C42 Herding classification is symmetric and herding directions are unit vectors or zero

herding_relationship gives swapped answers when the two agents are swapped, and herding_interaction gives only followers a direction, which is a unit vector or zero.

* Modelled: `steering/collective_motion.py`, `logic.py` LeaderFollower.
* Proof: fold invariant for the streaming search of the k nearest; case analysis.
* Theorems: `C42_meaning`, `C42_symmetric`, `C42_direction`, `C42_unit_or_zero`.

### C43 Leader following copies only visible leaders and leaves leaders alone

The leader following nodes never change anything of a non-follower. A follower looks at the leaders in sight that count for it (visible ones not heading for it, and its remembered leader when hidden): if the nearest of these is visible the follower remembers it, gives up its target and gets a direction mixed from the position and velocity; otherwise it copies the target of its remembered leader, or uses its familiar exit if it remembers none. No target is invented.

* Modelled: `steering/collective_motion.py`, `logic.py` LeaderFollower.
* Proof: fold invariant for the streaming search of the k nearest; case analysis.
* Theorems: `C43_leader_follower`, `C43_no_new_targets`, `C43_with_herding`, `C43_herding_direction`.

### C44 Logic nodes run children first, each exactly once per update

One update runs every node of the logic tree exactly once, every node after all of its descendants; injecting a node before/after another makes it run right after/before that node and preserves the set of other nodes.

* Modelled: `simulation/base.py`.
* Proof: induction over trees; edits as functions on trees.
* Theorems: `C44_once`, `C44_children_first`, `C44_inject_before`, `C44_inject_after`, `C44_inject_new`, `C44_edits`.

### C45 iterations and time_tot account exactly for the completed updates

After a run data["iterations"] is the number of completed updates, the run stops at the first moment the exit condition holds, time_tot is the sum of all dt, so time_tot lies between iterations*dt_min and iterations*dt_max; an exception in a node leaves iterations at the number of completed updates.

* Modelled: `simulation/multiagent.py`.
* Proof: induction over the run, with exceptions as values.
* Theorems: `C45_iterations`, `C45_stops`, `C45_no_exit`, `C45_time`, `C45_time_exception`.

### C46 A consumer of the process queue always receives the end marker exactly once

When a MultiAgentProcess finishes for whatever reason, exactly one end marker is put in the queue, after all other items.

* Modelled: `simulation/multiagent.py`.
* Proof: induction over the run, with exceptions as values.
* Theorems: `C46_caught_partial`, `C46_other_exception`, `C46_fails`.
* **Disagreement**: False: MultiAgentProcess.run catches only CrowdDynamicsException, so a ValueError of a node ends the process without an end marker (C46_fails). Proved: exactly one marker, last, whenever the run stops or raises a CrowdDynamicsException (C46_caught_partial); for other exceptions there is none (C46_other_exception).

### C47 The inactive counter counts inactive agents

After any number of InsideDomain updates data["inactive"] equals the number of agents outside the domain.

* Modelled: `simulation/logic.py` nodes on a simulation state.
* Proof: induction over updates; each node is shown to leave the other fields alone.
* Theorems: `C47_flags`, `C47_bound_partial`, `C47_no_return_partial`, `C47_constructed_partial`, `C47_fails`.
* **Disagreement**: False: the counter adds every change of the flag, so an agent that leaves and returns counts twice (C47_fails). Proved: flags always right; counter = outside + even number; equality if nobody returns.

### C48 TargetReached can be used with polygon targets

A simulation with polygon targets can add the TargetReached node, which then counts agents that reached each target.

* Modelled: `simulation/logic.py` nodes on a simulation state.
* Proof: induction over updates; each node is shown to leave the other fields alone.
* Theorems: `C48_polygon_error`, `C48_partial`, `C48_fails`.
* **Disagreement**: False: __init__ formats target_{index} with a positional argument, a KeyError exactly if there is a polygon target (C48_polygon_error, C48_fails). Without polygon targets the node does nothing (C48_partial).

### C49 Saved npy frames are the frames that were sent

The files written by the save_npy coroutine contain, in order, exactly the arrays that were sent up to the last dump, with their values at the time of sending, even though the simulation keeps updating the agent array in place.

* Modelled: `io.py` save_npy, save_csv.
* Proof: explicit heap for aliasing; a crash is any prefix of the history.
* Theorems: `C49_at_dump`, `C49_undisturbed_partial`, `C49_every_frame_partial`, `C49_crash`, `C49_copies_of_last`, `C49_fails`.
* **Disagreement**: False: the buffer keeps references, so frames buffered while the array is updated in place are lost (C49_fails; C49_copies_of_last for all histories of this kind). Proved: files hold the values at the dump (C49_at_dump), hence what was sent if undisturbed or every frame is dumped.

### C50 Numbered npy files are read back in numeric order

load_npy(dir, basename) yields exactly the files written by save_npy for that basename, in numeric order of their index.

* Modelled: `io.py` find_npy, load_npy_concatenated, save_npy names.
* Proof: file names as character lists, `lstrip`, `format` and `int` as functions on them.
* Theorems: `C50_exactly_partial`, `C50_no_digits_partial`, `C50_fails`, `C50_whitespace`, `C50_other_basename`.
* **Disagreement**: False: lstrip removes digits of the index that occur in the basename (C50_fails, basename run1). C50_exactly_partial decides for every basename and number of files whether loading works or raises; C50_other_basename: files of agents2 are loaded for agents.

### C51 CSV logging is durable up to the last dump and never reorders or repeats rows

At any crash point the csv file contains the header followed by exactly the rows sent up to the last dump, in order, each once.

* Modelled: `io.py` save_npy, save_csv.
* Proof: explicit heap for aliasing; a crash is any prefix of the history.
* Theorems: `C51_durable`, `C51_failed_dump`, `C51_protocol`.

### C52 Geometry saved to json can be loaded again

load_geometry_json returns the geometries that save_geometry_json stored.

* Modelled: `io.py` save/load of geometries.
* Proof: JSON documents as text; the file as the list of written documents.
* Theorems: `C52_lists_partial`, `C52_single`, `C52_twice`, `C52_fails`, `C52_multi`.
* **Disagreement**: False: a single geometry is never loadable because a dict is Iterable (C52_single, C52_fails); saving twice makes the file unreadable (C52_twice). Proved for None and lists.

### C53 Body dimensions stay consistent however attributes are set

After any sequence of assignments to radius and to the ratios, whenever radius and a ratio are positive the torso radius, shoulder radius and torso-shoulder distance equal ratio*radius.

* Modelled: `agents.py` traits, observers and validators.
* Proof: state machine of assignments, induction over histories of accepted and refused assignments.
* Theorems: `C53_dimensions`.

### C54 Rotational inertia matches mass and radius

inertia_rot always equals the documented formula of the current mass and radius.

* Modelled: `agents.py` traits, observers and validators.
* Proof: state machine of assignments, induction over histories of accepted and refused assignments.
* Theorems: `C54_inertia_fails`, `C54_inertia_partial`, `C54_inertia_stays_partial`.
* **Disagreement**: Refuted: inertia_rot is written only while it is 0, so later changes of mass or radius leave it stale (C54_inertia_fails). Proved instead: the first assignment making mass and radius positive sets the documented value; a nonzero inertia is never updated by any other assignment; shipped body types get the right value (C16_shipped_values).

### C55 Field caches return what a fresh computation would return

As long as the field is not modified, cached navigation queries return the same value as a fresh computation for every history of queries; after a modification they return the value for the modified field.

* Modelled: `field.py` `lru_cache` methods.
* Proof: history of calls and modifications; cache as a partial function of identity and arguments.
* Theorems: `C55_unmodified_partial`, `C55_repeat_partial`, `C55_modified_fails`.
* **Disagreement**: False after modifying a field that was queried before (the caches are keyed by identity): C55_modified_fails. Holds for all histories in which fields are modified only before their first query.

### C56 Every position in the domain maps to a valid grid cell; others keep their direction

Positions inside the bounds used for the mesh grid map to an index inside the grid whose node is less than one step away; navigation changes only agents with that target, and agents outside of the grid keep their direction.

* Modelled: `quickest_path.py` meshgrid, `geometry.py` index functions, `navigation.py`.
* Proof: floor arithmetic; `arange` by its length and entries.
* Theorems: `C56_grid`, `C56_index`, `C56_valid_iff`, `C56_navigation`.

### C57 Obstacle handling produces unit directions and uses the target direction outside the radius

The merged direction is a unit vector or undefined, equals the target direction at or beyond the radius from obstacles, and inside mixes both with weight strength^(distance/radius) between strength and 1; the per-agent variant computes the same mixture.

* Modelled: `obstacle_handling.py`.
* Proof: algebra of the blended direction.
* Theorems: `C57_far`, `C57_near`, `C57_unit`, `C57_continuous_partial`, `C57_array_partial`, `C57_continuous_fails`.
* **Disagreement**: proved for obstacle_handling; obstacle_handling_continuous uses the second component of the target direction for both components (obstacle_handling.py:88), so the claim about it is refuted (C57_continuous_fails) and C57_continuous_partial states what it computes

### C58 Line segments of a geometry cover the whole outline

geom_to_linesegment yields for a line string all consecutive vertex pairs and for multi-part geometries the concatenation of the parts, so n vertices give n-1 segments; polygons contribute every ring.

* Modelled: `geometry.py`.
* Proof: structural induction over nested geometries.
* Theorems: `C58_linestring`, `C58_shells`, `C58_obstacles`, `C58_holefree_partial`, `C58_hole_fails`.
* **Disagreement**: refuted for polygons with holes (only the exterior ring is used, geometry.py:92); proved for all hole-free geometries of any nesting, and C58_shells gives the exact result in general

### C59 geom_to_array encodes every supported geometry without loss

geom_to_array succeeds for points, line strings, polygons and their multi-part versions and the array determines the geometry.

* Modelled: `geometry.py`.
* Proof: structural induction over nested geometries.
* Theorems: `C59_single_partial`, `C59_multi_fails`.
* **Disagreement**: refuted for multi-part geometries (return in a generator, geometry.py:45); proved lossless for points, line strings and polygons with any holes

### C60 Drawing a geometry only writes the given value

After draw_geom every grid cell either keeps its old value or holds the given value.

* Modelled: `geometry.py`.
* Proof: structural induction over nested geometries.
* Theorems: `C60_holefree_partial`, `C60_among_partial`, `C60_hole_zero`, `C60_hole_fails`.
* **Disagreement**: refuted for polygons with holes (0 is written, geometry.py:125); proved exactly for hole-free geometries, and in general every cell is old, value or 0

### C61 Density estimates conserve the number of agents

density_classical returns a grid whose entries times the cell area add up to the number of points; density_voronoi averages each cell over the Voronoi areas of the agents in it.

* Modelled: `quantities.py`.
* Proof: grids as functions on index pairs; Voronoi diagram as an input with a contract.
* Theorems: `C61_classical_never`, `C61_fails`, `C61_core_partial`, `C61_voronoi2_partial`, `C61_voronoi2_fails`, `C61_negative_fails`, `C61_voronoi1_partial`, `C61_empty_cell_fails`, `C61_voronoi1_fails`.
* **Disagreement**: False of the code. density_classical never returns a grid (its shape has no place for the largest index); density_voronoi_2 stores areas by point and reads them by region; density_voronoi_1 computes the number of columns from the wrong minimum. Partial results give what holds.

### C62 The working directory is always restored

remember_cwd restores the previous working directory, as long as that directory still exists, when the body ends normally or with any exception, also when nested.

* Modelled: `utils.remember_cwd`.
* Proof: state transformer with exceptions, any body, any nesting.
* Theorems: `C62_restores`, `C62_nested`, `C62_gone`, `C62_no_start`.
* **Remark**: Proved for all bodies (arbitrary state changers that may raise) and any nesting depth. If the body removes the original directory, C62_gone shows that an OSError is raised instead.

### C63 Each command line simulation command runs the simulation it is named after

For every discovered simulation class the generated command runs that class.

* Modelled: `cli.py`, `utils.py`.
* Proof: closures with a shared variable; module search as a fold over a directory listing.
* Theorems: `C63_exact_partial`, `C63_last_fails`, `C63_options_fails`, `C63_fails`.
* **Disagreement**: False: the callbacks share one variable and take no arguments. A command works exactly when its class has no traits of its own and is the last class found (C63_exact_partial). Besides, setup.py:24-26 installs cli:main, which never calls simulation_commands.

### C64 Agents can be rebuilt from their array representation

Assigning the fields of an agent array back to a new agent with from_array reproduces all field values although assigning radius, mass and ratios triggers dependent updates.

* Modelled: `agents.py` traits, observers and validators.
* Proof: state machine of assignments, induction over histories of accepted and refused assignments.
* Theorems: `C64_from_array`, `C64_round_trip`.

### C65 Inactive agents no longer take part in the simulation

Agents that moved outside the domain are marked inactive and (as documented) not used to compute any of the simulation logic.

* Modelled: `simulation/logic.py` nodes on a simulation state.
* Proof: induction over updates; each node is shown to leave the other fields alone.
* Theorems: `C65_flag_unread`, `C65_fails`.
* **Disagreement**: False: the flag is never read by any node except InsideDomain (C65_flag_unread, proved for all nodes); C65_fails: an inactive agent changes the time step of an active one.

### C66 Stepping the whole circular simulation keeps every body attribute and never creates or loses agents

For every number of updates of a simulation built from the shipped nodes, the number of agents, their radii and masses stay the same and after each update all forces and torques are zero (reset).

* Modelled: one whole circular update.
* Proof: composition of the frame theorems of all nodes, induction over updates.
* Theorems: `C66_body`, `C66_forces`.

### C67 Members of a group get their attributes in order

An AgentGroup with size n and generator attributes gives the i-th member the i-th generated attribute set, and always has n members.

* Modelled: `agents.AgentGroup`.
* Proof: trait notifications as explicit calls that advance a generator.
* Theorems: `C67_generator_fails`, `C67_exhausted_fails`, `C67_collection_partial`, `C67_callable_partial`, `C67_resize_partial`, `C67_refused_partial`, `C67_collection_size_fails`, `C67_fails`.
* **Disagreement**: False: construction notifies the observer three times, so a generator is advanced 3*size items and member i gets item 2*size+i; a generator with fewer items raises StopIteration; collections ignore size. Proved for collections of the right length and for callables.

### C68 Followers who find an exit become independent for good

Under any sequence of ExitDetection and LeaderFollower steps an agent that stopped being a follower never becomes one again and every target written is a valid exit index or copied from another agent.

* Modelled: `steering/collective_motion.py`, `logic.py` LeaderFollower.
* Proof: fold invariant for the streaming search of the k nearest; case analysis.
* Theorems: `C68_independent`, `C68_targets`.

### C69 Moment arms reach the contact point

For two three-circle agents that touch, the moment arms returned by distance_three_circles lead from the torso centre to the point of contact (as they do for walls).

* Modelled: `distance.py` for circular and three-circle agents.
* Proof: minimum over the explicit list of circle pairs; comparison with `Spec.dist`.
* Theorems: `C69_moment_contact_point_fails`, `C69_moment_arm_partial`.
* **Disagreement**: False for agent pairs (C69_moment_contact_point_fails); the end point of the first arm is shown to lie on the far side of the closest circle. For walls see C11.

### C70 Every row of the agent array is an agent that was placed

After add_non_overlapping_group returns, the array that the rest of the simulation iterates over contains exactly the placed agents.

* Modelled: `agents.py` placement loop (`add_non_overlapping_group`).
* Proof: invariant by induction over the attempts, for every generator.
* Theorems: `C70_only_placed_rows_fails`, `C70_only_placed_rows_partial`, `C70_unused_rows`.
* **Disagreement**: False: rows of agents that did not fit stay in the array as zero-filled agents (the TODO at agents.py:675). Proved: rows from the index on are zero, and there are none if every group was placed completely.

### C71 The gradient returned with the time to collision is the gradient of the time to collision

The second result of time_to_collision_circle_circle (gradient_circle_circle) is the gradient of tau with respect to the relative position, as documented.

* Modelled: `power_law.py` forces.
* Proof: `HasDerivAt`/`HasFDerivAt` of the energy along lines.
* Theorems: `C71_negated_gradient_partial`, `C71_gradient_sign_fails`.
* **Disagreement**: The returned vector has the opposite sign of the documented gradient (callers compensate). Negation proved with a concrete witness; the negated vector is proved to be the gradient.

### C72 The three-circle social force is the negative gradient of the anticipation energy, capped

If one pair of circles makes the earliest contact and the force is nonzero, force_social_three_circle returns -m times the gradient of the documented energy of that contact, truncated to length 2000.

* Modelled: `power_law.py` forces.
* Proof: `HasDerivAt`/`HasFDerivAt` of the energy along lines.
* Theorems: `C72_torso_contact_gradient_partial`, `C72_shoulder_contact_gradient_fails`.
* **Disagreement**: Refuted for contacts with a shoulder (offset has the wrong sign and a factor 2); proved for torso contacts.

### C73 Points sampled in a triangle are uniformly distributed

For two independent uniform random numbers the probability that random_sample_triangle returns a point of the subtriangle with corners a, a+t(b-a) and a+t((1-s)(b-a)+s(c-a)) equals the ratio of the areas of the subtriangle and the triangle.

* Modelled: `sampling.py`.
* Proof: convex combinations; binary search; Lebesgue measure of the preimage of each set.
* Theorems: `C73_uniform`.

### C74 An agent that comes straight towards another is not taken for one that heads away

herding_relationship does not report that an agent heads away when the angle between its velocity and the direction to the other agent is less than phi.

* Modelled: `steering/collective_motion.py`, `logic.py` LeaderFollower.
* Proof: fold invariant for the streaming search of the k nearest; case analysis.
* Theorems: `C74_head_on_fails`, `C74_oblique_partial`.
* **Disagreement**: C74_head_on_fails: the comparison c < 1.0 excludes the angle 0, so an agent walking exactly towards another is reported as heading away. C74_oblique_partial covers all other angles.

### C75 Agents are spawned away from obstacles

Every point generated by Field.sample_spawn(index, radius) has at least the distance radius from every obstacle, as documented ("without overlapping with obstacles").

* Modelled: `field.py` sampling, navigation without obstacles.
* Proof: convex hull; exception as a value.
* Theorems: `C75_hull_partial`, `C75_convex_partial`, `C75_no_obstacles_partial`, `C75_fails`.
* **Disagreement**: False of the code: points are sampled from the convex hull of the free region (C75_fails). Proved: the points lie in that hull, and keep the distance if the free region is convex.

### C76 Direction maps point along the gradient and stay defined near obstacles

direction_map returns at each cell the unit vector along the gradient of the distance map (exactly so for affine distance maps, also at the border), and merging with the obstacle directions gives a defined direction at every cell that has a defined target direction.

* Modelled: `quickest_path.py`, `obstacle_handling.py` maps.
* Proof: finite differences on a grid; explicit corridor.
* Theorems: `C76_unit`, `C76_affine`, `C76_defined_partial`, `C76_corridor_fails`.
* **Disagreement**: refuted on the centre line of narrow corridors (zero gradient of the obstacle distance gives NaN); unit length, exactness for affine maps and a sufficient condition for being defined are proved

### C77 Navigation works in a field without obstacles

For a field with a domain and targets navigation_to_target returns a direction map also if the field has no obstacles (obstacles is None is allowed and handled by the other logic nodes).

* Modelled: `field.py` sampling, navigation without obstacles.
* Proof: convex hull; exception as a value.
* Theorems: `C77_obstacles_partial`, `C77_no_obstacles_error`, `C77_fails`.
* **Disagreement**: False of the code: without obstacles an exception is always raised (C77_no_obstacles_error, C77_fails). Proved for fields with obstacles.

### C78 Injecting a logic node keeps the order in which the other nodes run

Injecting a new node into a logic tree with inject_before or inject_after changes the order of no two other nodes.

* Modelled: `simulation/base.py`.
* Proof: induction over trees; edits as functions on trees.
* Theorems: `C78_inject_before_fails`, `C78_inject_after_partial`, `C78_inject_before_partial`.
* **Disagreement**: False of the code: inject_before appends the new node to the children of the parent, so a node with siblings behind it moves behind them (C78_inject_before_fails). Proved for inject_after, and for inject_before at the root or at a last child.

### C79 Looking up a logic node by name

logic[name] finds the same node from every node of the tree; it finds a node if and only if one has that name, and raises KeyError otherwise.

* Modelled: `simulation/base.py`.
* Proof: induction over trees; edits as functions on trees.
* Theorems: `C79_getitem`.

### C80 Nobody becomes a leader or a follower during a run

Whatever tree of shipped nodes a simulation has, no update makes an agent a leader or stops it from being one, and no update makes an agent a follower that was none.

* Modelled: `simulation/logic.py` nodes on a simulation state.
* Proof: induction over updates; each node is shown to leave the other fields alone.
* Theorems: `C80_roles`.

### C81 References to targets and leaders stay valid

If every agent starts with target and familiar exit missing or an index of a target, and leader missing or an index of an agent, then this holds after every run of any tree of shipped nodes, so no later lookup is out of range.

* Modelled: `simulation/logic.py` nodes on a simulation state.
* Proof: induction over updates; each node is shown to leave the other fields alone.
* Theorems: `C81_references`.

### C82 Concatenated data can be loaded again

After the command concat_npy stored its result, load_npy still loads the numbered files (so that the command can be repeated).

* Modelled: `io.py` find_npy, load_npy_concatenated, save_npy names.
* Proof: file names as character lists, `lstrip`, `format` and `int` as functions on them.
* Theorems: `C82_never`, `C82_fails`, `C82_first_partial`.
* **Disagreement**: False for every basename (C82_never, C82_fails): basename.npy matches the search and int('') raises. The first concatenation is right (C82_first_partial).

### C83 Saving and loading agents is a round trip

Loading the files of a basename returns exactly the frames sent up to the last dump, in order, provided arrays are not changed while buffered, the basename has no digits and no other files carry the name.

* Modelled: `io.py` find_npy, load_npy_concatenated, save_npy names.
* Proof: file names as character lists, `lstrip`, `format` and `int` as functions on them.
* Theorems: `C83_roundtrip`.

### C84 save_npy writes into the directory it was given

The files appear in the given directory under the given basename.

* Modelled: `io.py` find_npy, load_npy_concatenated, save_npy names.
* Proof: file names as character lists, `lstrip`, `format` and `int` as functions on them.
* Theorems: `C84_no_braces_partial`, `C84_fails`, `C84_wrong_directory`.
* **Disagreement**: False for names with braces because the whole path is a format template (C84_fails, C84_wrong_directory).

### C85 Voronoi regions are made finite, one per point

voronoi_finite_polygons_2d returns one region per point in the order of the points, keeps all vertices, leaves finite regions unchanged, and gives every other region its finite corners plus one new vertex per open ridge; the new vertex lies on the ridge, away from the other points.

* Modelled: `quantities.py`.
* Proof: grids as functions on index pairs; Voronoi diagram as an input with a contract.
* Theorems: `C85_regions`, `C85_far_point`.
* **Remark**: scipy.spatial.Voronoi is an input that satisfies ValidVoronoi; argsort returns a permutation.

### C86 Importing simulations finds all simulation classes of a directory

import_simulations(dir_path) returns every proper subclass of MultiAgentSimulation that a python file of the directory dir_path binds, and nothing else.

* Modelled: `cli.py`, `utils.py`.
* Proof: closures with a shared variable; module search as a fold over a directory listing.
* Theorems: `C86_cwd_partial`, `C86_other_directory_fails`, `C86_fails`.
* **Disagreement**: False for directories other than the current one (names are not joined with dir_path) and for names bound in two files; exact characterisation for the current directory.

### C87 Signatures with parameters without default are rejected

parse_signature yields all parameters except self in order, and raises InvalidType if one of them has no default.

* Modelled: `cli.py`, `utils.py`.
* Proof: closures with a shared variable; module search as a fold over a directory listing.
* Theorems: `C87_order_partial`, `C87_fails`.
* **Disagreement**: False: mkspec asks for an instance of the marker class inspect.Parameter.empty, while a missing default is that class itself. The rest is proved.

### C88 The number of runs is respected

run --num n command runs the simulation of the command n times.

* Modelled: `cli.py`, `utils.py`.
* Proof: closures with a shared variable; module search as a fold over a directory listing.
* Theorems: `C88_once_partial`, `C88_fails`.
* **Disagreement**: False: num is stored in the context but never read. Proved for num = 1.

### C89 Structured dtypes have one field for each trait

class_to_struct_dtype makes a dtype with exactly one field for each trait that is visible in the class hierarchy and not excluded, in the order of the hierarchy, with the dtype and shape of the trait; for the shipped agent types these are the fields that the numba functions read.

* Modelled: `traits.py`, `config.py`, `utils.py` deprecation.
* Proof: class hierarchies as lists, method resolution order; the option types as sets of accepted texts.
* Theorems: `C89_fields_partial`, `C89_order_partial`, `C89_agents`, `C89_excluded`, `C89_indices`, `C89_fails`.
* **Disagreement**: If a dtype is made, its fields are exactly the visible traits in the order of the hierarchy, and the fields of the shipped agent types are computed exactly; but overriding a trait makes it visible twice and raises a ValueError (C89_fails).

### C90 Target directions are always zero or unit vectors

The validators accept exactly arrays of the right shape and length and do not change them, so that the target direction of an agent has length zero or one (up to the tolerance) whatever is assigned.

* Modelled: `agents.py` traits, observers and validators.
* Proof: state machine of assignments, induction over histories of accepted and refused assignments.
* Theorems: `C90_accepts`, `C90_invariant`, `C90_validators`.
* **Remark**: Proved for the validators and for any sequence of assignments; np.isclose is modelled with its default tolerances.

### C91 Command line options accept the values that the traits accept

The option made by trait_to_option produces exactly the values that the trait accepts.

* Modelled: `traits.py`, `config.py`, `utils.py` deprecation.
* Proof: class hierarchies as lists, method resolution order; the option types as sets of accepted texts.
* Theorems: `C91_agrees_partial`, `C91_float_fails`, `C91_enum_fails`, `C91_fails`, `C91_tuple`.
* **Disagreement**: Holds for integers, complex numbers, truth values, strings, unbounded reals and enumerations of strings; false for bounded reals (the option has no range) and for enumerations of classes such as agent_type.

### C92 Invalid configurations are rejected

load_config raises ValidationError if an entry does not match the specification, and returns the configuration otherwise.

* Modelled: `traits.py`, `config.py`, `utils.py` deprecation.
* Proof: class hierarchies as lists, method resolution order; the option types as sets of accepted texts.
* Theorems: `C92_partial`, `C92_fails`.
* **Disagreement**: False: a partially failed validation returns a dictionary, which counts as true. Only configurations without any valid section are rejected. The behaviour of configobj.validate is a modelled library contract.

### C93 Deprecated functions warn and still work

Calling a function decorated with deprecated emits one warning and returns what the function returns.

* Modelled: `traits.py`, `config.py`, `utils.py` deprecation.
* Proof: class hierarchies as lists, method resolution order; the option types as sets of accepted texts.
* Theorems: `C93_partial`, `C93_fails`.
* **Disagreement**: False in python 3: functions have no attribute func_code, so each call raises an AttributeError.

### C94 Logic expressions build the tree they are written as

Evaluating any expression of node constructors and the operator << in a new simulation raises nothing unless a constructor does, and yields one tree in which every constructed node occurs exactly once, the nodes of a right operand being further children of the root of the left operand, in order.

* Modelled: `base.py` operators, trees of `examples/*.py`.
* Proof: evaluation of expressions with fresh node numbers, induction over expressions; the shipped trees are computed.
* Theorems: `C94_tree`, `C94_chain`, `C94_counters`.
* **Remark**: Evaluation order, numbering and the operator << are modelled as Python runs them; proved by induction over expressions.

### C95 Shipped simulations update their nodes in a sensible order

In every shipped simulation each update sets the aims of the agents before turning them into forces, adds all forces before integrating, and clears the forces after integrating.

* Modelled: `base.py` operators, trees of `examples/*.py`.
* Proof: evaluation of expressions with fresh node numbers, induction over expressions; the shipped trees are computed.
* Theorems: `C95_partial`, `C95_fails`.
* **Disagreement**: False of the code for TestMovement (written without parentheses): C95_fails; proved for the other twelve shipped simulations.

### C96 Active agents are those inside the domain

After a completed update of a shipped simulation with an InsideDomain node, an agent is marked active exactly if its position is inside the domain.

* Modelled: whole updates of the shipped trees.
* Proof: Hoare-style lemmas for each node composed along the post-order; induction over updates.
* Theorems: `C96_partial`, `C96_fails`.
* **Disagreement**: False of the code: InsideDomain is a sibling that runs before the integrator, so the flags are one update old (C96_fails, concrete run). C96_partial: the flags describe the positions at the start of the update.

### C97 The movement test moves agents towards their aim

In the shipped simulation TestMovement an agent whose velocity is not the one it aims at changes its velocity.

* Modelled: whole updates of the shipped trees.
* Proof: Hoare-style lemmas for each node composed along the post-order; induction over updates.
* Theorems: `C97_coasting`, `C97_fails`.
* **Disagreement**: False of the code: forces are computed after the integrator and cleared; C97_coasting proves that velocities never change, for any crowd and number of updates, C97_fails gives a standing agent.

### C98 Every shipped simulation can be updated

No update of a shipped simulation raises an exception.

* Modelled: whole updates of the shipped trees.
* Proof: Hoare-style lemmas for each node composed along the post-order; induction over updates.
* Theorems: `C98_partial`, `C98_fails`, `C98_run_partial`, `C98_herding_partial`.
* **Disagreement**: False of the code: AroundCircle and AvoidPillar have no agents (C98_fails). C98_partial: Outdoor, TestMovement and TestAgentInteraction never raise. C98_herding_partial: the trees with herding but without an exit never raise if the obstacles are points, lines and polygons. C98_run_partial: all 13 trees with agents make any number of updates if, besides that, the field has a domain and targets and the directions to the targets can be computed (C77 says when). Missing: the simulations without agents, of which it is false.

### C99 Shipped fields with walls are closed

For every shipped field with walls (hallway, rounding, avoid obstacle, closed room, room with one exit, four exits) and all parameters its traits accept, every point on the boundary of the domain lies on an obstacle or on a target, so that nobody can leave the domain except through an exit or a wall.

* Modelled: `examples/fields.py`, `examples/simulations.py`, `examples/collective_motion.py`.
* Proof: fields as sets in the plane (segments, rectangles, hulls); closedness via connected or boundary-covering segments; real arithmetic over all accepted parameters.
* Theorems: `C99_partial`, `C99_fails`.
* **Disagreement**: False of the code for RoomWithOneExit when exit_width exceeds height (C99_fails: the outline has gaps); proved for all other shipped fields with walls and all accepted parameters (C99_partial).

### C100 Parts of a shipped field lie in its domain

Obstacles, targets and spawns of every shipped field are subsets of its domain, as the documentation of Field says, for all accepted parameters.

* Modelled: `examples/fields.py`, `examples/simulations.py`, `examples/collective_motion.py`.
* Proof: fields as sets in the plane (segments, rectangles, hulls); closedness via connected or boundary-covering segments; real arithmetic over all accepted parameters.
* Theorems: `C100_partial`, `C100_fails`, `C100_pillar_fails`.
* **Disagreement**: False of the code for AvoidObstacle when exit_width exceeds height (C100_fails) and for PillarInTheMiddle already with its default parameters (C100_pillar_fails); proved for all others (C100_partial).

### C101 No wall stands in an exit of a shipped field

In every shipped field, for all accepted parameters, no interior point of a target segment belongs to an obstacle.

* Modelled: `examples/fields.py`, `examples/simulations.py`, `examples/collective_motion.py`.
* Proof: fields as sets in the plane (segments, rectangles, hulls); closedness via connected or boundary-covering segments; real arithmetic over all accepted parameters.
* Theorems: `C101_partial`, `C101_fails`.
* **Disagreement**: False of the code for AvoidObstacle with ratio_obs = 1 (C101_fails); proved for all other fields and parameters, RoomWithOneExit needs an exit that fits into the room (C101_partial).

### C102 The leaders of FourExitsFixedPlacing start away from walls

For every accepted exit width the four spawns of the leaders lie in the domain, each at least five metres from every wall, and two of them are at least five metres apart, so that placing the leaders can never be refused because of a wall or of another leader.

* Modelled: `examples/fields.py`, `examples/simulations.py`, `examples/collective_motion.py`.
* Proof: fields as sets in the plane (segments, rectangles, hulls); closedness via connected or boundary-covering segments; real arithmetic over all accepted parameters.
* Theorems: `C102_leaders`.

### C103 Groups of the shipped simulations refer to existing spawns and targets

In every shipped simulation with walls each group is placed in an existing spawn, targets and familiar exits of its members are no target or an index of a target of the field, nobody is leader and follower at the same time, and followers begin without a target.

* Modelled: `examples/fields.py`, `examples/simulations.py`, `examples/collective_motion.py`.
* Proof: fields as sets in the plane (segments, rectangles, hulls); closedness via connected or boundary-covering segments; real arithmetic over all accepted parameters.
* Theorems: `C103_references`, `C103_roles`.

### C104 Shipped simulations place the requested number of agents

The groups of a shipped simulation have together as many members as the parameters ask for.

* Modelled: `examples/fields.py`, `examples/simulations.py`, `examples/collective_motion.py`.
* Proof: fields as sets in the plane (segments, rectangles, hulls); closedness via connected or boundary-covering segments; real arithmetic over all accepted parameters.
* Theorems: `C104_partial`, `C104_fails`.
* **Disagreement**: False of the code for a hallway of odd size, which places size - 1 agents (C104_fails); proved for everything else (C104_partial).

### C105 In the hallway both groups head for their exits

Everybody in the hallway who starts at a point of the spawn of the own group and goes straight in the initial direction reaches the target of the group.

* Modelled: `examples/fields.py`, `examples/simulations.py`, `examples/collective_motion.py`.
* Proof: fields as sets in the plane (segments, rectangles, hulls); closedness via connected or boundary-covering segments; real arithmetic over all accepted parameters.
* Theorems: `C105_heading`, `C105_room`.

### C106 In the hallway the groups start on opposite sides

Every possible starting point of the group that goes to the right is to the left of every possible starting point of the other group.

* Modelled: `examples/fields.py`, `examples/simulations.py`, `examples/collective_motion.py`.
* Proof: fields as sets in the plane (segments, rectangles, hulls); closedness via connected or boundary-covering segments; real arithmetic over all accepted parameters.
* Theorems: `C106_partial`, `C106_fails`.
* **Disagreement**: False of the code for ratios above one half, which the trait accepts (C106_fails); proved up to one half (C106_partial).

### C107 Accepted parameters of a simulation are accepted by its field and logic

If the traits of a shipped simulation accept its parameters then those of its field and of its logic nodes accept what the simulation passes to them, so that no TraitError is raised later.

* Modelled: `examples/fields.py`, `examples/simulations.py`, `examples/collective_motion.py`.
* Proof: fields as sets in the plane (segments, rectangles, hulls); closedness via connected or boundary-covering segments; real arithmetic over all accepted parameters.
* Theorems: `C107_partial`, `C107_extremes`, `C107_fails`.
* **Disagreement**: False of the code: AvoidObstacle accepts exit widths below 1 and ratios that give a detection range below 1, its field and ExitDetection do not (C107_fails); proved otherwise (C107_partial).

### C108 Changing parameters of a field changes its geometry

After new parameters are assigned to a shipped field it has the geometry of a new field with these parameters.

* Modelled: `examples/fields.py`, `examples/simulations.py`, `examples/collective_motion.py`.
* Proof: fields as sets in the plane (segments, rectangles, hulls); closedness via connected or boundary-covering segments; real arithmetic over all accepted parameters.
* Theorems: `C108_partial`, `C108_fails`.
* **Disagreement**: False of the code: only OutdoorField and HallwayField observe their parameters (C108_partial), the other fields keep their old geometry (C108_fails).

### C109 The pillar stands in the domain

The pillar of PillarInTheMiddle has a point inside of the domain.

* Modelled: `examples/fields.py`, `examples/simulations.py`, `examples/collective_motion.py`.
* Proof: fields as sets in the plane (segments, rectangles, hulls); closedness via connected or boundary-covering segments; real arithmetic over all accepted parameters.
* Theorems: `C109_partial`, `C109_fails`.
* **Disagreement**: False of the code: the pillar is centred at the origin while the domain is [w/2,w] x [h/2,h], so with the default parameters the two do not meet (C109_fails); C109_partial gives the exact condition.

### C110 Forces between circular agents are the sum over all others

One call of agent_agent_block_list on circular agents adds to the force on every agent exactly the sum, over all other agents, of the social force (minus mass times the gradient of the anticipation energy, capped at 2000) and the contact force, for pairs whose bodies are less than 3 apart; nothing else of any agent changes.

* Modelled: `logic.py` interaction nodes of a field.
* Proof: the pair loop is summed over unordered pairs; cells contract as in C30.
* Theorems: `C110_pair_forces`.

### C111 The walls that act on agents are those of the field

The node AgentObstacleInteractions adds to force and torque of every agent exactly the sum of the effects of the edges of the obstacles of the field (holes filled), raises nothing for supported geometries, and changes nothing else.

* Modelled: `logic.py` interaction nodes of a field.
* Proof: the pair loop is summed over unordered pairs; cells contract as in C30.
* Theorems: `C111_field_walls`.

### C112 An update is one step of the equation of motion

If a logic tree runs nodes before an integrator and nodes after it, nothing else moves agents, and nobody is steered after the adjusting force, then one completed update moves every circular agent by one time step within the bounds of the integrator, under the sum of the forces that the nodes before the integrator ought to contribute in the state at the start of the update, and leaves no forces if Reset comes last.

* Modelled: one update of a shipped simulation.
* Proof: force of the state at the start of the update, then Verlet/Euler step; per tree.
* Theorems: `C112_newton`.

### C113 Shipped simulations integrate the equation of motion

One completed update of every shipped simulation other than TestMovement moves every circular agent of radius at most 0.3 by a time step of 0.01 under the sum of a bounded random force, the adjusting force towards the direction chosen in this update, the forces of all other agents and (where the node is present) the walls of the field; all forces are zero afterwards.

* Modelled: one update of a shipped simulation.
* Proof: force of the state at the start of the update, then Verlet/Euler step; per tree.
* Theorems: `C113_shipped_newton`.

### C114 Navigation goes to the selected target

navigation_to_target(k) is the static potential for target number k of the field (counted from the end for negative k), the domain and the obstacles; with closest it is that for the union of all targets; no targets, an index out of range, another kind of index are refused with CrowdDynamicsException, IndexError and InvalidType.

* Modelled: `field.py`, `navigation.py`, `logic.Navigation`.
* Proof: the maps are inputs with the contract of scikit-fmm; index arithmetic.
* Theorems: `C114_number`, `C114_closest`, `C114_refused`.

### C115 Wrong input is refused with the documented exception

Geometries that are not points, line strings, polygons or collections of these raise TypeError in all conversions; geom_to_array raises ValueError for collections; stored arrays of different sizes raise ValueError; saving a non-empty dictionary as geometry raises AttributeError and writes nothing.

* Modelled: `geometry.py`, `utils.py`, `io.py`, `agents.py` refusals.
* Proof: case analysis over the arguments, state after the exception.
* Theorems: `C115_segments`, `C115_draw`, `C115_array`, `C115_storage`, `C115_concatenate`, `C115_dictionary`.

### C116 What the navigation map says

If static_potential returns, the fast marching solver was asked for the distance to exactly the cells of the target with exactly the cells of the widened obstacles masked, and at every inner cell the map is the unit vector of fastest approach to the target away from the obstacles, and the mixture with the direction away from the obstacles near them.

* Modelled: `field.py`, `navigation.py`, `logic.Navigation`.
* Proof: the maps are inputs with the contract of scikit-fmm; index arithmetic.
* Theorems: `C116_map`.

### C117 Attributes of bodies stay in range and the body type is set once

However an agent is created and whatever is assigned later, no attribute of its body is ever negative and no ratio is larger than 1; values out of range are refused and change nothing; the body type can be set once, another one later raises.

* Modelled: `agents.py` traits, observers and validators.
* Proof: state machine of assignments, induction over histories of accepted and refused assignments.
* Theorems: `C117_ranges`, `C117_refused`, `C117_body_type`.

### C118 Free positions are accepted, overlapping ones rejected

The overlap tests used when agents are placed are exact; if the positions drawn leave every member clear of agents and walls all of them are placed there, in order, and no draw is rejected; a position at which the member overlaps a near agent or a wall is rejected and nothing is stored.

* Modelled: `agents.py` overlapping, overlapping_obstacles and the loop.
* Proof: the tests are compared with the geometric overlap of discs; induction over the attempts.
* Theorems: `C118_tests`, `C118_all_placed`, `C118_rejected`.

### C119 The navigation node uses the map of the agents own target at the agents own cell

Navigation.update gives every agent inside of the domain the direction that the map of its target has at the cell in which it is (row from y, column from x); other agents and all other attributes are unchanged; if the map of some target cannot be computed the exception of the first such target is raised after changing nothing but directions.

* Modelled: `field.py`, `navigation.py`, `logic.Navigation`.
* Proof: the maps are inputs with the contract of scikit-fmm; index arithmetic.
* Theorems: `C119_node`, `C119_failure`.

### C120 Nobody starts in a wall

In every shipped simulation that has walls, for every choice of its parameters that it accepts, no agent of a group is ever placed so that its circle overlaps a wall, whatever positions the generator draws.

* Modelled: `field.sample_spawn`, placement in the shipped simulations.
* Proof: hull of the free region is contained in a box; explicit midpoint near the door.
* Theorems: `C120_partial`, `C120_room_partial`, `C120_fails`.
* **Disagreement**: False for RoomWithOneExit with default parameters (C120_fails: the obstacles are not passed to the placement and the convex hull of the free region cuts the corner beside the door); proved for all other shipped simulations with walls (C120_partial) and, in RoomWithOneExit, for the three line walls (C120_room_partial).

### C121 What a stored simulation contains

After a simulation with a SaveSimulationData node was run in a fresh directory, for any number of updates and any pattern of saves: metadata.csv holds the metadata; geometry.json can be loaded and gives back the domain, obstacles, targets and spawns of the field; data.csv holds a header and the data of every update up to the last save; the agents files hold the agents after each of these updates. When an exception ends the run, everything up to the save before is kept. Two simulations with different names or timestamps use different default directories.

* Modelled: SaveSimulationData: full_path, the default directory name, the constructor (makedirs, metadata.csv, geometry.json, the two coroutines) and update, on top of the models of save_npy, save_csv and save_geometry_json; a run is a list of updates that change the agents in place, each with data and the save flag; any file access may fail.
* Proof: The run is projected to the histories of the two coroutines, for which the exact contents of the files are known (C49, C51, C52); induction on the history for the frames; a run with an exception is a completed run followed by a failing update.
* Theorems: `C121_partial`, `C121_every_update_partial`, `C121_geometry_partial`, `C121_geometry_error`, `C121_crash`, `C121_fails`, `C121_directory`.
* **Disagreement**: False of the code in two ways. save_npy keeps references to the agent array, which the simulation changes in place, so all frames between two saves show the agents at the second save (C121_fails; C121_partial says exactly what is stored). The geometry of a field whose domain is a polygon can be written but never loaded, and no geometry can be loaded once a second simulation was stored in the same directory (C121_geometry_error). Proved: metadata and data files exact; one frame per data row; right if every update is saved; geometry loads if domain and obstacles are None; after an exception the data up to the save before is kept, and the agents are stored up to the save before or one save further (C121_crash).

### C122 Forces and torques between three-circle agents are the sum over all others

One call of agent_agent_block_list on three-circle agents adds to force and torque of every agent exactly the sum, over all other agents, of the social force (for the earliest contact of two of their circles), the contact force at the pair of circles closest to each other, and the moment of their sum about the agent, acting at the point of contact, for pairs less than 3 apart; nothing else of any agent changes.

* Modelled: `agent_agent_block_list` for three-circle agents: the interaction of a pair (`bodyEffect`), the loop over the pairs of the cell list.
* Proof: The loop adds oriented effects of pairs, each pair once because of the contract of the cell list (`agentAgent_effects`); the effect of a pair is compared with the specification in `bodyEffect_spec`. The refutation computes the only possible torque of a concrete pair for both kinds of arm.
* Theorems: `C122_pair_effects_partial`, `C122_fails`.
* **Disagreement**: Refuted (C122_fails): with two overlapping agents that rub against each other, the friction turns the first one the wrong way or not at all, because the arms of the forces lead to the far side of the circle and the arm for the second circle may start at the other agent (C09, C69). What holds (C122_pair_effects_partial): everything else in the statement, with the arms that the code uses; that social forces use 3 times the offset of the circles (C72) and may miss collisions of shoulders (C27) is part of the specification of the social force.

### C123 An update is one step of the equations of motion of three-circle agents

If a logic tree runs nodes before an integrator and nodes after it, nothing else moves agents, and nobody is steered after the adjusting force, then one completed update moves and turns every three-circle agent by one time step within the bounds of the integrator, under the sum of the forces and torques that the nodes before the integrator ought to contribute in the state at the start of the update, and leaves no forces and torques if Reset comes last. In particular every shipped simulation other than TestMovement does so.

* Modelled: The whole update of a simulation with three-circle agents: all nodes, the velocity Verlet steps for position and orientation, `shoulders`.
* Proof: Induction on the list of nodes as for C112 (`turn_list`), with the additional fields of three-circle agents (`SameTurn`); the shipped trees are treated one by one (`shipped_turn`).
* Theorems: `C123_newton_partial`, `C123_fails`, `C123_shipped_newton_partial`.
* **Disagreement**: Refuted (C123_fails) by an update of the two agents of C122. What holds (C123_newton_partial for trees, C123_shipped_newton_partial for the shipped simulations): the full statement with the arms that the code uses instead of arms to the point of contact.

### C124 Plot ranges contain the data and have the aspect ratio asked for

set_aspect sets ranges whose lengths have the ratio aspect times width over height of the figure, that are centred on the data, and that leave a margin on every side which is the given fraction of the total plot range.

* Modelled: `set_aspect`: exact arithmetic, `ValueError` and `ZeroDivisionError` as values.
* Proof: Closed form of the result (`setAspect_spec`); minimality from the case distinction of the code.
* Theorems: `C124_ranges_partial`, `C124_fails`, `C124_empty`.
* **Disagreement**: Refuted (C124_fails): the margin is a fraction of the range of the data, not of the total plot range as documented; for the unit square and margin 0.1 it is 0.1 of 1.2. What holds (C124_ranges_partial): everything else, with the margin as a fraction of the range of the data, and there are no smaller ranges like this; C124_empty: no data raise ValueError.

### C125 Drawings of geometries show exactly their points

add_geom draws all parts of a geometry, and what is drawn is exactly the set of points of the geometry; anything else raises TypeError.

* Modelled: `add_geom`, `add_field` and `plot_field`; a figure is the list of its glyphs. Styles and legends are left out.
* Proof: Mutual induction on geometries and lists of parts; the point sets of geometries and glyphs are defined separately (paths, even-odd rule for rings). `plot_field` uses C77, C114 and C124.
* Theorems: `C125_drawn_partial`, `C125_refused`, `C125_fails`.
* **Disagreement**: Refuted (C125_fails): holes of polygons are filled, as only the exterior is passed to bokeh. What holds (C125_drawn_partial): all points are drawn, and nothing else if there are no holes; C125_refused: anything else raises TypeError. Interior of a ring: even-odd rule.

### C126 Every field can be drawn

add_field and plot_field draw every field: all points of domain, spawns, targets and obstacles are visible, and plot_field chooses ranges that contain the domain, with equal units on both axes.

* Modelled: `add_geom`, `add_field` and `plot_field`; a figure is the list of its glyphs. Styles and legends are left out.
* Proof: Mutual induction on geometries and lists of parts; the point sets of geometries and glyphs are defined separately (paths, even-odd rule for rings). `plot_field` uses C77, C114 and C124.
* Theorems: `C126_add_field_partial`, `C126_add_field_refused`, `C126_fails`, `C126_plot_refused`, `C126_plot`.
* **Disagreement**: Refuted (C126_fails): a field without obstacles (the default value None) raises TypeError, as does one without domain. plot_field raises for every field without a domain, although it has a branch for this case, and for every field without obstacles (C126_plot_refused, see C77). What holds: fields with both (C126_add_field_partial, C126_plot).

### C127 Maps are drawn where they belong

add_distance_map shows every value of a map at its grid point; add_direction_map draws one arrow per sampled grid point, from the grid point along the direction, with its head at the tip and pointing the same way.

* Modelled: `add_distance_map`, `add_direction_map` on the model of `meshgrid`.
* Proof: Pixels of an image as rectangles; arrows by membership in the sampled grid, angles with the argument of complex numbers.
* Theorems: `C127_distance_partial`, `C127_fails`, `C127_arrows`.
* **Disagreement**: Refuted for distance maps (C127_fails): the upper right corner of the domain is passed to bokeh as width and height, so the image is misplaced unless the lower left corner is the origin (C127_distance_partial). Direction maps: C127_arrows is the full claim.

### C128 Names and formats of the files of drawings

figure writes to a file with the extension html (appended if it is missing) and shows or saves it only if asked to and if the block completes; render_tree chooses the format by the extension and refuses others.

* Modelled: `figure`, `render_tree`, `os.path.splitext`.
* Proof: Characterisation of the extension found by `splitext` (`splitext_iff`).
* Theorems: `C128_figure`, `C128_render`.

### C129 Domain and obstacles of a field are never invalid or empty

Whatever is assigned to domain and obstacles of a field, they are always None or valid and not empty; a value that is refused raises and leaves the field unchanged.

* Modelled: The traits `domain` and `obstacles` with their validators; validity and emptiness are parameters. Not modelled: assignments inside of `hold_trait_notifications`.
* Proof: Invariant by induction on the assignments.
* Theorems: `C129_invariant`, `C129_assign`.

### C130 Speeds stay bounded forever

In every run of a shipped simulation (other than TestMovement) with circular agents, of any length: if everything that acts on an agent besides its adjusting force never exceeds F, its speed never exceeds target_velocity + tau_adj * F / mass, provided it does not start faster. An agent who stays out of reach of others and of walls never exceeds target_velocity + 3 * tau_adj * std_rand_force.

* Modelled: Runs of the shipped logic trees (Model/ShippedLogic, Model/Simulation); nothing new is modelled. Spec/LongRun.lean defines what disturbs an agent and what a run is.
* Proof: Every update is a step of the equation of motion (C113); the velocities of an agent obey a linear recurrence of second order because the integrator averages the last two accelerations. Its characteristic roots are real and nonnegative for dt / tau_adj at most 0.3; splitting off the smaller root gives the exact bound and the monotone relaxation.
* Theorems: `C130_speed_limit`, `C130_alone`.

### C131 Undisturbed agents reach the velocity they want

In every run of a shipped simulation (other than TestMovement) an agent without random force that is out of reach of others and walls and keeps its direction approaches its desired velocity: the difference keeps its direction (no overshooting) and shrinks at least by the factor 1 - dt / (2 tau_adj) per update.

* Modelled: Runs of the shipped logic trees (Model/ShippedLogic, Model/Simulation); nothing new is modelled. Spec/LongRun.lean defines what disturbs an agent and what a run is.
* Proof: Every update is a step of the equation of motion (C113); the velocities of an agent obey a linear recurrence of second order because the integrator averages the last two accelerations. Its characteristic roots are real and nonnegative for dt / tau_adj at most 0.3; splitting off the smaller root gives the exact bound and the monotone relaxation.
* Theorems: `C131_relaxes`.

### C132 Nobody jumps over a wall

In no update of a shipped simulation does an agent that does not touch a wall pass it.

* Modelled: As C130.
* Proof: The displacement in one update is bounded by the speed limit and the bound on the acceleration; a segment shorter than the radius from a point farther than the radius from the wall misses the wall. The counterexample is computed with the equation of motion.
* Theorems: `C132_no_jump_partial`, `C132_fails`.
* **Disagreement**: False as stated: the time step is always 0.01 (dt_min = dt_max in the default Integrator) whatever the speed, so an agent with 100 m/s in front of a wall is behind it after one update (C132_fails, simulation with walls). Proved: with the speed limit V of C130 no agent moves further than dt * V * (1 + dt / tau_adj) per update, and passes no untouched wall if this is less than its radius (about 24 m/s for an adult).

### C133 Neither coordinates nor numbering of agents matter

If agents, walls and random directions of a simulation with circular agents are turned, reflected or moved together and the agents are renumbered, every update (of the nodes Reset, Integrator, Fluctuation, Adjusting, Orientation, AgentAgentInteractions, AgentObstacleInteractions) and every run of any length ends in the same way, takes the same time steps and leads to the turned, moved and renumbered agents. In particular a symmetric scene stays symmetric for ever.

* Modelled: Nothing new: the nodes and the update of Model/Simulation.lean for circular agents. Nodes that read a grid, a domain or a target (Navigation, the follower nodes, ExitDetection, InsideDomain, TargetReached) are not covered.
* Proof: A linear map that keeps lengths keeps scalar products and commutes with a quarter turn up to the sign; the friction force is quadratic in the tangent and the normal of a wall is corrected by a sign, so every force turns with the scene. The sums over neighbours are reindexed with the permutation, the time step depends only on maxima (C19). Induction on the nodes and on the updates.
* Theorems: `C133_viewpoint`, `C133_run`, `C133_symmetry`.

### C134 Version of a working copy

In a working copy of a git repository get_versions() returns the documented version TAG[+DISTANCE.gHEX[.dirty]] (0+untagged.DISTANCE.gHEX[.dirty] without tags, a dot instead of + after a tag that contains +), the full hash of the last commit, whether there are uncommitted changes, no error, and the date of the commit in the form of ISO 8601. In particular the parser of the output of git describe recovers tag, distance and hash, also for tags that contain hyphens.

* Modelled: all of `crowddynamics/_version.py` that runs in a working copy: `get_keywords`, `get_config`, `run_command`, `git_pieces_from_vcs` with the regular expression of line 269, `render_pep440`, `render`, `get_versions`. `subprocess.Popen` is an arbitrary function of program, arguments and directory; the specification says what git prints for a state of the working copy.
* Proof: the regular expression is read from the end, where hexadecimal digits and decimal digits delimit the groups uniquely; stripping, splitting off `-dirty`, conversion of decimal numbers (from C64) and of the date are inverted lemma by lemma.
* Theorems: `C134_checkout`, `C134_checkout_root`.

### C135 The version identifies the state of the source

Working copies that report the same version have the same closest tag, the same distance, changes in both or none, and the same abbreviated hash unless they are exactly at the tag.

* Modelled: as C134; canonical versions are defined by the grammar of PEP 440, independently of the code.
* Proof: unique decomposition of the rendered text at `+` and dots; the local part is built up by the constructors of the grammar. Without git the loop over parent directories is unfolded.
* Theorems: `C135_fails`, `C135_identifies_partial`.
* **Disagreement**: Full statement refuted (C135_fails): a commit tagged 1+2.gab and the commit ab, two commits after the tag 1, report the same version 1+2.gab. Proved for tags without +.

### C136 Versions are valid according to PEP 440

The reported version is a canonical version in the sense of PEP 440 if the tags are, also for source trees without git.

* Modelled: as C134; canonical versions are defined by the grammar of PEP 440, independently of the code.
* Proof: unique decomposition of the rendered text at `+` and dots; the local part is built up by the constructors of the grammar. Without git the loop over parent directories is unfolded.
* Theorems: `C136_fails`, `C136_checkout_partial`, `C136_directory_partial`.
* **Disagreement**: Full statement refuted (C136_fails): without git, in a directory crowddynamics-master (as made by unpacking the archive of a branch) the version is master. Proved for working copies with canonical tags; without git the version is the end of the name of the directory, or 0+unknown if none of three directories is named crowddynamics-...

### C137 Version of an archive

In an archive made by git (keywords expanded) the reported version is a tag of the commit (the first one in the order of strings), or 0+unknown with an error message if the commit has no tags.

* Modelled: `git_versions_from_keywords` (lines 161-213) with `strip`, `split`, `set`, `sorted`; the specification writes the keyword as git does (`%d`).
* Proof: the text is decomposed with `List.splitOn_intercalate`; the first element of the sorted set is the minimum by induction (total order of strings proved).
* Theorems: `C137_fails`, `C137_tags_partial`, `C137_untagged_partial`.
* **Disagreement**: Full statement refuted (C137_fails): if the commit has no tags but the name of its branch contains a digit, the version is text like HEAD -> release2 (the comment in the code assumes that such refs are tags of old versions of git). Proved if the commit has tags, and if it has none and no name contains a digit.

### C138 Asking for the version never raises

get_versions() returns default information if it is unable to compute the version; it never raises an exception, whatever the installed programs do.

* Modelled: `get_versions` with arbitrary behaviour of the programs.
* Proof: case analysis over all calls of git; the number matched by the regular expression always converts.
* Theorems: `C138_fails`, `C138_no_exception_partial`, `C138_error_report_partial`, `C138_return_code_partial`.
* **Disagreement**: Full statement refuted (C138_fails): if git show fails, None.strip() raises AttributeError; if there are no tags and git rev-list fails, int(None) raises TypeError; both escape get_versions and hence import crowddynamics. Proved if git is not found or if these two commands succeed, whatever the other commands do.

### C139 The styles of git describe

The style git-describe-long reports exactly what git describe --tags --dirty --always --long prints and the style git-describe what it prints without --long.

* Modelled: `render_git_describe`, `render_git_describe_long` and the choice of the style (lines 405-474).
* Proof: computation from the pieces found in C134.
* Theorems: `C139_fails`, `C139_describe_partial`.
* **Disagreement**: Full statement refuted (C139_fails): without tags the code takes the first seven digits of the hash, git may abbreviate to more. Proved with a tag or if git abbreviates to seven digits.

### C140 The movement test walks one centimetre per update

TestMovement starts with exactly one agent, of either agent type, at the origin: active, radius 0.255 m, mass 73.5 kg, walking and wanting to walk at 1 m/s along the first axis, with shoulders in place for three-circle agents and no force acting. After k updates it is at (k/100, 0) with the same velocity, orientation and body, shoulders attached and no force or torque left over.

* Modelled: `attributes` and `_observe_agents` of `TestMovement` (through the model of the observers of `BodyType` and of `add_non_overlapping_group`), and its logic.
* Proof: the observers are evaluated symbolically for the six body attributes; the loop of the placement is unrolled; one update is computed for an arbitrary point of the axis and iterated.
* Theorems: `C140_start`, `C140_walk`.

### C141 The interaction test starts a head-on encounter that stays symmetric

TestAgentInteraction starts with exactly two agents, of either agent type, at (0, 0) and (5, 0), that do not overlap and walk towards each other at 1 m/s, so that they would meet after 2.5 s. For circular agents, if the random forces push both agents along the line with equal strength and in opposite directions, then after any number of updates both agents are on the line, at equal distances from the point halfway between them, with opposite velocities.

* Modelled: `attributes` and `_observe_agents` of `TestAgentInteraction` and its logic.
* Proof: the start as for C140, with the distance of the cells of the two agents; the symmetry by applying C133 to the reflection that exchanges the agents and to the reflection at their line.
* Theorems: `C141_start`, `C141_symmetric`.

### C142 Messages of the package reach the log files for which they are configured

With the shipped logging configuration, messages of any logger of the package are written to debug.log from level DEBUG on and to info.log from level INFO on.

* Modelled: `logging.yaml`, `setup_logging`, `user_info`, and of the standard module `logging` the effective level and the walk through handlers and parents.
* Proof: induction on the parts of the name of the logger.
* Theorems: `C142_destinations_partial`, `C142_fails`, `C142_user_info_partial`.
* **Disagreement**: Disagreement: the logger of the package has the level INFO (logging.yaml:48), so DEBUG messages are dropped before the handler of debug.log (level DEBUG) sees them; debug.log and info.log always have the same contents, and nothing of the package appears on the console because propagate is off. Proved instead: the exact destinations for every logger and level.

### C143 The log level asked for on the command line is used

If run --loglevel L accepts the level L, then afterwards messages of the package are written exactly if their level is at least L.

* Modelled: `run` with `setup_logging` (whose argument is unused in the model as in the code).
* Proof: from the destinations of C142.
* Theorems: `C143_level_partial`, `C143_fails`.
* **Disagreement**: Disagreement: setup_logging ignores its argument loglevel (logging.py:53-57); whatever level is given, messages are written from INFO on. Proved instead: this, for every accepted value, and that the claim holds exactly for INFO.

### C144 The option for the log level accepts every listed level, refuses others politely and can be documented

The option --loglevel accepts every name and every number in LOGLEVELS, refuses every other text with a usage error, and the help of the command can be shown.

* Modelled: `LOGLEVELS`, the option `--loglevel` and `click.Choice` of click 6.7 (`convert`, `get_metavar`).
* Proof: evaluation of membership in the list of choices; the join of the choices raises at the first number.
* Theorems: `C144_choices_partial`, `C144_fails`.
* **Disagreement**: Disagreement: LOGLEVELS mixes numbers and texts. Values on the command line are texts, so the numbers can never match; the list of choices cannot be joined, so every refused value ends with a TypeError instead of a usage error and so does run --help. Proved instead: exactly the eight names (and the default) are accepted, everything else and the help raise TypeError.

### C145 The installed program can run the simulations that the module can run

Every simulation that python -m crowddynamics.cli run NAME runs is also run by the installed script crowddynamics run NAME.

* Modelled: the entry points in `setup.py` and at the end of `cli.py`, with the model of `simulation_commands`.
* Proof: evaluation.
* Theorems: `C145_script_partial`, `C145_module_partial`, `C145_fails`.
* **Disagreement**: Disagreement: the simulations become commands only under if __name__ == "__main__"; the installed script calls main after importing the module, so the group run is empty. Proved instead: with the script every name is a usage error; the module run as a program runs a simulation that is alone and has no attributes of its own (see C63 for the general case).

### C146 The outdoor simulations start as described

Both Outdoor simulations store one row per agent asked for. The agents that were placed are active adults that walk at 1 m/s in the direction drawn for them, stand inside the field and (circular agents) do not overlap. With leaders, the leader always gets the first row, stands at the fixed fraction of the field and looks along the first axis, and everybody else is a follower. Rows of agents that could not be placed are inactive.

* Modelled: `attributes` and `_default_agents` of both classes `Outdoor`, with the draws of the random numbers as input and the positions drawn from the samples of `OutdoorField`.
* Proof: the rows and positions of C17 for each of the calls, the body of an adult as for C16, disjointness from C16; the leader is placed first on an empty array, so it cannot be rejected.
* Theorems: `C146_outdoor`, `C146_led`.

### C147 Driven agents get ahead and leave the field

In every run of a shipped simulation (other than TestMovement) with circular agents, if what drives an agent (desired velocity plus relaxation time over mass times everything else that acts on it) always has a component of at least c along a unit vector u, then after k updates the agent has advanced along u by at least 0.01 k c - 2 V tau_adj, where V is its speed limit. In particular an agent out of reach of others and walls advances at least at the rate v0 c0 - 3 tau_adj std, and in the simulations with InsideDomain it is marked as not active once this exceeds the extent of the domain along u.

* Modelled: the runs of the shipped simulations as for C130 to C132.
* Proof: an exact formula for the way of the agent (the sum of what drives it, up to terms of the first and last step), the speed limit of C130 for the remainder, C96 for `InsideDomain`.
* Theorems: `C147_progress`, `C147_alone`, `C147_leaves`.

### C148 When runs end

A run with the exit condition time_tot >= T of a simulation whose updates raise no exception and whose nodes contain one integrator with 0 < dt_min <= dt_max ends normally after m updates with (T - t) / dt_max <= m < (T - t) / dt_min + 1, less than dt_max after T. For the shipped simulations m is exactly the ceiling of (T - t) / 0.01. The exit condition iterations == K of the tests ends a run exactly when the counter reaches K if it is at most K at the start; otherwise the run never ends.

* Modelled: `SimulationBase.run` with exit conditions on the time and on the counter.
* Proof: the time grows by between `dt_min` and `dt_max` per update (C45), so there is a first state that meets the condition; C98 for the absence of exceptions.
* Theorems: `C148_time_limit`, `C148_shipped`, `C148_iterations`.

### C149 Forces between agents are determined and change no total momentum

The force of one circular agent on another, as specified (gradient of the anticipation energy cut back to 2000 N, plus contact force, within sight), is uniquely determined, and opposite to the force in the other direction if both agents have the same physical parameters. So in every run of a shipped simulation (other than TestMovement) with such agents, every update changes the total momentum by exactly 0.01 / 2 times the sum of the outside forces (random, adjusting, walls) of this and the last update.

* Modelled: the runs of the shipped simulations as for C130 to C132.
* Proof: uniqueness of gradients, of cut vectors and of normals; C110 for the existence of the forces; the double sum over all pairs is its own negative.
* Theorems: `C149_determined`, `C149_opposite`, `C149_momentum`.

### C150 The other styles report the documented versions

For each style the docstring of its function says what is reported: pep440-pre gives the tag and .post.devDISTANCE if there are commits since; pep440-old gives the tag and .postDISTANCE, with .dev0 if there are changes; pep440-post gives the same and the hash; without tags the tag is 0. The style default and the empty style mean pep440; any other style raises ValueError.

* Modelled: the functions `render_pep440_pre`, `render_pep440_post`, `render_pep440_old` and the choice of a style in `render`.
* Proof: the pieces of a working copy are computed once (C134); then cases on the tag, the distance and the changes.
* Theorems: `C150_styles_partial`, `C150_post_partial`, `C150_fails`, `C150_choice_partial`.
* **Disagreement**: Without tags, pep440-post also reports the hash (0.postDISTANCE[.dev0]+gHEX), which its docstring does not say; with a tag that contains a plus sign the second separator is a dot. Both are stated exactly by C150_post_partial.

### C151 Agents out of sight have no influence

Others matter only within sight. If nobody else comes nearer to a group of agents than the sight distance of 3 metres (gap between the bodies), the group moves in the same way in every crowd: whatever the number, the numbering, the bodies and the plans of the others, every attribute of every member is the same after every update. If nobody moves more than c per update, those who start with a gap of more than 3 + 2 c N cannot influence the group during the first N updates.

* Modelled: the runs of the simulations without leaders and herding, in two crowds with different numbers of agents.
* Proof: the total force of the other agents on a member is a sum over all pairs (C110), in which distant agents contribute nothing (C21); every other node treats each agent on its own; induction over the updates; the triangle inequality for the horizon.
* Theorems: `C151_group`, `C151_horizon`.

### C152 The table of traits shows every trait

The documentation of an agent class contains a csv table of its traits. Read as ReStructuredText and as comma separated values, it gives the four headings and then exactly one row for each trait of the class and its bases, in order, with the name, the symbol, the default value and the help text unchanged, whatever commas and quotes they contain; there is no other way to read it.

* Modelled: `table_of_traits`, `Rst`, and from the standard library `csv.writer` (dialect excel), `textwrap.indent` and `str.splitlines`; the metadata of the traits of the agent classes.
* Proof: the grammar of RFC 4180 is unambiguous (a cell is determined by what follows it), so reading is unique; what the writer produces satisfies the grammar; lines of the table contain a comma and are therefore indented.
* Theorems: `C152_table_partial`, `C152_agents_partial`, `C152_names_partial`, `C152_fails`.
* **Disagreement**: The code disagrees: a trait whose default value is a tuple makes table_of_traits raise a TypeError, because Rst.literal applies the operator % to it (traits.py:237). Texts with line breaks are left out: textwrap.indent indents the lines inside of a cell as well.

### C153 Docstrings are completed and otherwise kept

The class decorator interpolate_docstring replaces each key in the docstring by its value, computed from the class if it is a function, and keeps the rest of the docstring; doubled percent signs become one, percent signs in values play no role, unknown keys raise KeyError. A lone percent sign in the docstring or a missing docstring makes the decorator raise.

* Modelled: `interpolate_docstring` and the operator `%` for the directives `%%` and `%(key)s`; other directives are a parameter.
* Proof: recursion over the pieces of the docstring.
* Theorems: `C153_docstring_partial`, `C153_agents_partial`, `C153_fails`, `C153_undocumented_partial`.
* **Disagreement**: The code disagrees: the decorator uses the operator % on the whole docstring (utils.py:49), so a lone percent sign in it raises, and so does a missing docstring.

### C154 Keywords of an archive are read back from the version file

git_get_keywords returns for every keyword the text that stands between the quotes of the line of this keyword: the search finds the leftmost place with an equals sign, white space and a quoted value and takes the longest value there. So a file in which git archive has replaced the keywords by any values without line feed (also with quotes or equals signs) is read as these values if no other line begins with the name of a keyword; the file of the repository is read as what get_keywords returns there; a file that cannot be opened gives no keywords and no version.

* Modelled: `git_get_keywords` (`gitGetKeywords`): `readlines`, `strip().startswith`, and the search for `=\s*"(.*)"` written as recursions (`readLines`, `searchValue`, `upToLastQuote`); the text of `get_keywords` is copied as data (`getKeywordsSource`). Left out: the decoding of the file and errors while reading it.
* Proof: The search is proved equal to a declarative description of leftmost and longest match (`Found`, which has at most one value); a fold over the lines then keeps the values of the three keyword lines. The shipped text is split by kernel evaluation.
* Theorems: `C154_search`, `C154_read`, `C154_shipped`, `C154_missing`.

### C155 Points sampled in a polygon are uniformly distributed

The point that polygon_sample yields lies in any measurable set with probability equal to the share of the area of the convex hull of the vertices that this set covers, provided that the triangulation of scipy tiles the hull (the triangles cover exactly the hull, two of them overlap at most in a set without area) and the hull has a positive area. The same holds for random_sample_triangle in every triangle with positive area.

* Modelled: `polygon_sample`, `triangle_area_cumsum` and `random_sample_triangle` as for C38, C39 and C73; the three random numbers are arguments, the triangulation is a parameter of which the tiling of the hull is assumed.
* Proof: change of variables: the map from the two random numbers to the triangle is injective up to a null set and has a derivative with the constant determinant of half the cross product (Mathlib: `lintegral_abs_det_fderiv_eq_addHaar_image`); a degenerate triangle is the image of a singular map; the choice of the triangle splits the cube of random numbers into boxes whose volumes are known from C39; the areas in the tiles add up.
* Theorems: `C155_triangle`, `C155_uniform`.

### C156 Fluctuations have no preferred direction

The fluctuation force of an agent depends on the number drawn for its direction only through its direction: the length is mass times std_rand_force times the drawn size, the distribution of the force is not altered by any rotation, and its mean is zero. The same holds for every row of random_vector with default angles. The fluctuation torque is zero on average if the drawn size is distributed symmetrically.

* Modelled: `force_fluctuation`, `random_vector` and the node `Fluctuation` with the angle computed from the number of the generator (`fluctuationAngle`, `uniformDraw`).
* Proof: a rotation of the force is a shift of the random number in a circle of length 1; intervals of length 1 are fundamental domains of the integers, so they carry the same measure of a periodic set; the mean is an integral of cosine and sine over a period; the mean torque equals its negative.
* Theorems: `C156_isotropic`, `C156_mean`, `C156_random_vector`, `C156_torque`.

### C157 The clocks of the players are Poisson processes

If the standard exponential numbers of the generator are independent and exponentially distributed, then poisson_clock(interval, dt) ends with probability one and the number of times it yields is Poisson distributed with mean dt / interval; poisson_timings ends with probability one, and the numbers of times that different players are yielded in one call are independent and Poisson distributed with mean dt / interval.

* Modelled: `poisson_clock` and `poisson_timings` as for C37, with the drawn intervals computed from standard exponential numbers (`exponentialDraw`); the random numbers are a sequence of random variables.
* Proof: the number of ticks is described by a recursion over the intervals; the first interval is independent of the later ones, so the probability of k + 1 ticks is an integral of the density of the exponential distribution times the probability of k ticks in the remaining time; the clocks of different players read disjoint blocks of the sequence of numbers; the Poisson probabilities add up to one, which gives termination.
* Theorems: `C157_count`, `C157_ends`, `C157_timings_end`, `C157_timings`.

### C158 Fine time steps give the true motion

For every law of motion with Lipschitz continuous accelerations of any number of agents, and every solution of the equation of motion up to a time T, both integrators, called over and over with the forces of the law, stay within a constant times dt_max of the solution, in all positions and velocities at all times up to T, if they start on it. The constant does not depend on the step sizes, which adaptive_timestep selects, and velocity_verlet_integrator may start with any bounded force_prev.

* Modelled: both integrators (Model/Integrator); the law of motion, its solution and the repeated calls are specified in Spec/Convergence without reference to the integrators.
* Proof: the local errors along the solution are bounded by mean value inequalities, their growth by a discrete Gronwall argument (Proofs/Convergence); for velocity Verlet the force of the previous step is carried along.
* Theorems: `C158_euler`, `C158_verlet`.

### C159 The velocity Verlet integrator is of second order

With a fixed time step h the error of velocity_verlet_integrator is at most a constant times the square of h for every Lipschitz law of motion, as for the velocity Verlet method that its documentation describes.

* Modelled: velocity_verlet_integrator (Model/Integrator).
* Proof: refuted with constant acceleration, for which the error of the position is computed exactly (t h after the time t); the first order is proved as the partial result.
* Theorems: `C159_first_order_partial`, `C159_constant_error`, `C159_fails`.
* **Disagreement**: velocity_verlet_integrator updates the velocity by the mean of the forces of the previous and of this step and then moves by the new velocity plus half the acceleration; under constant acceleration a the position is wrong by a t h after the time t, so the method is only of first order (proved as C159_first_order_partial), although velocity Verlet is of second order.

### C160 The social force slows the approach

The social force anticipates collisions and acts against them. If the discs of two circular agents will touch within 30 seconds and then overlap, the social forces on both have a strictly negative component along their motion relative to the other, so they slow the approach; without such a collision both forces are zero, so that the force on either agent is not zero exactly if a collision is ahead. For three-circle agents every social force that is not zero slows the approach in the same sense.

* Modelled: `force_social_circular` and `force_social_three_circle` (Model/PowerLaw); the claim uses only velocities, circles and first touch times.
* Proof: the scalar product of the gradient of the time to collision with the relative velocity is 1 for circular agents, and 1 plus three times the advance of the touching parts divided by d for three-circle agents; refuted with a near miss of a shoulder that is behind.
* Theorems: `C160_circular_partial`, `C160_parts_ahead_partial`, `C160_slows_approach_fails`.
* **Disagreement**: False for three-circle agents (C160_slows_approach_fails): gradient_three_circle adds twice the displacement of the shoulder, and the displacement has the wrong sign (see C72). If a pedestrian will graze another one with a shoulder that is behind, the social force pushes the pedestrian forward and pulls the other one closer. Proved: the whole claim for circular agents, and for three-circle agents if the parts that touch first are not behind the middle of their bodies. Missing: contacts of shoulders that are behind, for which it is false.

### C161 The tests of the social force test it

The assertions of the two tests of the social forces hold for both types of agents, whatever bodies are drawn: two adults who walk alike, two metres apart, do not feel a social force, and two adults who walk towards each other do.

* Modelled: the agents and assertions of test_power_law_benchmark.py (Model/PowerLawTests), with bodies constructed as in Model/BodyType.
* Proof: equal velocities give a zero leading coefficient; for the head-on case the body values of C16 give a first touch of the discs (or torsos) and C160 applies; a positional dictionary leaves default agents with equal velocities.
* Theorems: `C161_not_colliding_partial`, `C161_colliding_keywords_partial`, `C161_colliding_fails`.
* **Disagreement**: False (C161_colliding_fails): test_colliding calls agent_type({...}) with a positional dictionary instead of keywords. HasTraits ignores positional arguments (traitlets 4.3.2 turns the TypeError into a warning), so the test examines two default agents at the same place and its assertions fail. Proved: the assertions of test_not_colliding, and those of test_colliding if the attributes are passed as keywords.

### C162 Angles are wrapped correctly in floating point

With the rounding of float64 after each operation, wrap_to_pi returns a float64 in [-np.pi, np.pi], strictly between -pi and pi; it differs from the angle by whole turns up to an error of (1 + |x|) 2^-50; wrapping twice is wrapping once; np.pi and -np.pi map to themselves.

* Modelled: `wrap_to_pi` with rounding after each operation (Model/Rounded), rounding to nearest even with gradual underflow (Model/Float64); `Spec.Binary64` and `Spec.Nearest64` describe floats without reference to the rounding function.
* Proof: fmod is exact, since the remainder is a multiple of the finer of the two grids; 2 pi is rounded exactly by doubling; subtractions near the interval are exact (Proofs/RoundedAngles).
* Theorems: `C162_range`, `C162_congruent`, `C162_idempotent`, `C162_ends`, `C162_exact`, `C162_rounding`.

### C163 Angles in range are not changed in floating point

wrap_to_pi returns angles in [-np.pi, np.pi] as they are.

* Modelled: as for C162.
* Proof: refuted at -2^-60, where adding a turn loses all digits; the error is bounded by half an ulp of a turn.
* Theorems: `C163_unchanged_fails`, `C163_unchanged_partial`.
* **Disagreement**: Disagreement: the documentation (interval [-pi, pi] is mapped to itself) does not hold for small negative angles in floating point: wrap_to_pi(-2**-60) is 0. Partial: nonnegative angles are unchanged and the error for negative ones is at most 2^-51.

### C164 The cell list is not affected by rounding errors

With the rounding of float64, two points get the same key in the block list exactly if they are in the same cell of the exact grid, and a search looks up exactly the keys of the cells whose index differs by at most the given radius, so that no point within the radius times the cell size is missed; the floor division of floats is the exact one.

* Modelled: `_transform` and `_nearest_blocks` of the block list with rounding; `//` as `float_divmod` of CPython.
* Proof: the rounded quotient is within less than one half of the floor, which the correction step of the algorithm repairs; integers below 2^50 are floats.
* Theorems: `C164_same_key`, `C164_searched_keys`, `C164_complete`, `C164_floor_division`.

### C165 Doors of whole multiples of the width of an agent

A door whose width is k times the width w of an agent has capacity k, for widths that are written as decimal numbers.

* Modelled: `narrow_exit_capacity` with rounding.
* Proof: refuted with 0.6 and 0.2, whose roundings have a quotient below 3; in general the answer is k or k - 1.
* Theorems: `C165_decimal_fails`, `C165_decimal_partial`.
* **Disagreement**: Disagreement: narrow_exit_capacity(0.6, 0.2) is 2, not 3, because 0.6 // 0.2 is 2.0 in float64. Partial: the capacity is k or k - 1, and k if the widths are floats.

### C166 The third law holds exactly in floating point

In any arithmetic whose rounding is monotone, symmetric and idempotent, and with any hypot that is symmetric and any exp, the social and contact forces that two circular agents with the same mass, k_soc, tau_0, mu, kappa and damping exert on each other are exact opposites, and for any two agents the forces do not depend on the order of the pair in the last digit.

* Modelled: the pair interaction of circular agents with rounding in any arithmetic (`Arith`).
* Proof: each operation is odd or even in the relative position and velocity, and symmetric rounding keeps this.
* Theorems: `C166_opposite`, `C166_order`, `C166_interaction`, `C166_exact`.

### C167 Interactions of equal agents do not change the total force in floating point

If all agents are circular with the same parameters, agent_agent_circular, computed in float64, does not change the sum of the forces that it stores.

* Modelled: `agent_agent_circular` with rounding.
* Proof: refuted with three agents in a row; a push is absorbed in the sum of the middle agent. The partial result adds the errors of the two additions.
* Theorems: `C167_total_fails`, `C167_total_partial`, `C167_single_partial`.
* **Disagreement**: Disagreement: adding the forces of several neighbours rounds, so the total force of a crowd is not conserved exactly. Partial: bound by two rounding errors for each pair, and exact for the first pair.

### C168 Intersections of segments in floating point

With the rounding of float64, line_intersect answers correctly for all segments that are not parallel.

* Modelled: `line_intersect` with rounding.
* Proof: refuted with two segments whose cross product rounds to zero; on a grid all differences and products are exact, and rounding a quotient of integers below 2^51 cannot move it across 0 or 1.
* Theorems: `C168_intersect_fails`, `C168_intersect_partial`, `C168_parallel_partial`, `C168_exact`.
* **Disagreement**: Disagreement: almost parallel crossing segments are reported as disjoint, since the cross product of their directions is rounded to zero. Partial: exact on grids of 2^25 points per axis.

### C169 The random clocks in floating point

With rounding, poisson_clock yields times in [0, dt) in order, off by at most m rounding errors for time number m, consumes one interval more than it yields times, and ends if the intervals add up to dt.

* Modelled: `poisson_clock` with rounding.
* Proof: induction over the loop; refuted with intervals below the resolution of the sum.
* Theorems: `C169_times`, `C169_near`, `C169_exact`, `C169_ends_fails`, `C169_ends_partial`.
* **Disagreement**: Disagreement: the generator does not end if the intervals are below the resolution of the time reached. Partial: order, range, accuracy and the end at an interval of at least dt.

### C170 The unit test of wrap_to_pi for all arguments

test_wrap_to_pi passes for every float: the result lies between -np.pi and np.pi, and for odd multiples of np.pi it is np.pi if the argument is positive and -np.pi otherwise.

* Modelled: the test (Model/VectorTests) on top of `wrap_to_pi` with rounding (Model/Rounded).
* Proof: the range from C162; near zero the remainder and the sum are computed exactly; refuted with a power of two times np.pi.
* Theorems: `C170_test_wrap_to_pi_fails`, `C170_range_partial`, `C170_test_wrap_to_pi_partial`, `C170_exact_partial`.
* **Disagreement**: False of the code. For large arguments np.pi times a power of two is not an odd multiple of np.pi, but phi + np.pi rounds to phi, so the condition of the test holds while the result is 0 (witness phi = 2^61 np.pi). Proved: the range for all arguments; the whole test for -np.pi <= phi < np.pi - 2^-50 and phi = np.pi; the whole test in exact arithmetic.

### C171 The unit tests of vectors, distances and exit capacity for all arguments

test_length, test_normalize, test_truncate, test_distance_circle_circle and test_narrow_exit_capacity pass for all arguments their strategies can draw, in float64 with any hypot that is accurate to a few units in the last place.

* Modelled: the five tests (Model/VectorTests) with the strategies as hypotheses and `np.isclose` with rounding; `hypot` is any function with a small relative error (Spec/VectorTests).
* Proof: relative errors of length, division and multiplication are added up and compared with the tolerance 1e-5; signs are kept by rounding.
* Theorems: `C171_test_length`, `C171_test_length_detects`, `C171_test_normalize`, `C171_test_truncate`, `C171_test_distance_circle_circle`, `C171_test_narrow_exit_capacity`, `C171_truncate_length`.

### C172 The unit test of the block list for all draws

test_mutable_block_list passes in every dimension, for every number of points and all numbers random() can give: all points of the cube from -1 to 2 are found around the origin.

* Modelled: the test (Model/CoreTests) on top of the block list (Model/BlockList), with `random.uniform` rounded.
* Proof: a + (b - a) u stays below 2 for all u = k 2^-53, so every key lies in -1, 0, 1; C12 gives the answer of nearest.
* Theorems: `C172_test_mutable_block_list`, `C172_keys`.

### C173 The unit test of line_intersect for all arguments

test_line_intersect passes for all segments: the function agrees with the geometric intersection of the segments.

* Modelled: the test (Model/CoreTests) with rounding; the answer of shapely is the geometric one.
* Proof: on the grid line_intersect is exact (C168); refuted with two equal segments.
* Theorems: `C173_test_line_intersect_fails`, `C173_test_line_intersect_partial`.
* **Disagreement**: False of the code. For collinear segments that overlap line_intersect answers False and shapely True, so the test is flaky in principle (witness: two equal segments). Proved for coordinates that are multiples of 2^-24 when the segments are not parallel or do not meet.

### C174 The unit tests of the random clocks for all draws

test_poisson_clock and test_poisson_timings pass whatever intervals the generator draws: the times increase strictly from 0 and stay below dt, and only players are yielded.

* Modelled: the tests (Model/CoreTests) on top of `poisson_clock` with rounding and of `poisson_timings`.
* Proof: below 2^-6 an interval of 2^-58 is at least half an ulp of the sum and moves it; induction over the loop.
* Theorems: `C174_test_poisson_clock_fails`, `C174_test_poisson_clock_partial`, `C174_exact_partial`, `C174_test_poisson_timings`.
* **Disagreement**: False of the code. If the first drawn interval is zero the time 0.0 is yielded and the test asserts 0.0 < 0.0. Proved for intervals of at least 2^-58 with rounding, and for positive intervals without; test_poisson_timings passes in general.

### C175 The unit tests of the integrators for all arguments

The tests of adaptive_timestep and of both integrators pass for every crowd, every pair of bounds and any floating point arithmetic: the time step lies between the bounds.

* Modelled: `adaptive_timestep` with rounding in any arithmetic (Model/CoreTests).
* Proof: case distinction at the two bounds.
* Theorems: `C175_test_adaptive_timestep`, `C175_step_bounds`, `C175_test_integrators`, `C175_exact`.

### C176 The unit tests of the samples for all draws

test_linestring_sample, test_triangle_area_cumsum, test_random_sample_triangle and test_polygon_sampling pass for all their arguments and all random numbers.

* Modelled: the tests (Model/CoreTests); `linestring_sample`, `triangle_area_cumsum` and `random_sample_triangle` with rounding; shapely exact.
* Proof: the rounded sample is compared coordinate by coordinate with a point of the segment or triangle; a sum of nonnegative numbers stays sorted under rounding; for polygons the sample lies in the interior of a triangle of the mesh.
* Theorems: `C176_test_linestring_sample`, `C176_test_triangle_area_cumsum`, `C176_test_random_sample_triangle`, `C176_test_polygon_sampling_fails`, `C176_test_polygon_sampling_partial`.
* **Disagreement**: test_polygon_sampling is false in principle: for the random number 0 the sample is a vertex, which the polygon does not contain in the sense of shapely. Proved for nonzero numbers, in exact arithmetic. The other three tests pass for all numbers with rounding.

### C177 The simulation time in floating point

A run with a constant step until a time limit makes the number of updates given by the quotient of limit and step, rounded up. In floating point it can make one more or less, never two, and the time grows with every update.

* Modelled: the sum of `time_tot` and the loop of `run` with rounding (Model/RoundedMotion).
* Proof: integer evaluation of the 1000 rounded sums for the refutation; induction with the rounding error of each sum for the bounds.
* Theorems: `C177_run_length_fails`, `C177_time_partial`, `C177_run_length_partial`, `C177_time_grows`, `C177_constant_step`.
* **Disagreement**: The number of updates is not that of exact arithmetic: with the default step 0.01 a run until the time 10 makes 1001 updates, because the rounded sum of 1000 steps is below 10. Proved: the error of the sum after k updates, at most one update more or less, and strict growth. Missing: the exact number of updates.

### C178 The grid of the navigation in floating point

In floating point the mesh grid has the rows and columns of the exact grid up to one, its nodes are those of the exact grid up to a small part of the step, and every position inside of the bounds has a valid index.

* Modelled: `np.arange` and `meshgrid` with rounding (Model/RoundedMotion).
* Proof: the two rounded quotients are compared with the exact ones; integer evaluation for the refutation.
* Theorems: `C178_grid_fails`, `C178_shape_partial`, `C178_valid`, `C178_index_partial`, `C178_exact`.
* **Disagreement**: The number of nodes is not that of exact arithmetic: with the step 0.1 and the bounds 0 and 0.2 each axis has four nodes, not three. Proved: at most one node more or less, equality unless a side is within an eighth of a step from a whole number of steps, valid indices for all positions inside of the bounds, and nodes up to a small part of the step. Missing: the exact number of nodes.

### C179 The integrators in floating point

In floating point one step of each integrator gives the position, velocity, orientation and angular velocity of the exact formula up to a few rounding errors of the quantities in the formula; the orientation stays in [-pi, pi] modulo the full turn; an agent without force stays on a straight line up to a drift that grows with the number of steps.

* Modelled: both integrators with a rounding after each operation (Model/RoundedMotion).
* Proof: a small calculus of rounding errors (c units in the last place of a bound S of the summands, plus k smallest numbers); `wrap_to_pi` by C162; induction over the steps for the drift.
* Theorems: `C179_motion_fails`, `C179_euler_partial`, `C179_verlet_partial`, `C179_free`, `C179_drift_partial`, `C179_orientation`, `C179_rotation_partial`, `C179_rotation_verlet_partial`, `C179_exact`.
* **Disagreement**: The step is not that of exact arithmetic: an agent at (1, 0) with the velocity 2**-60 does not move at all. Proved: bounds of the error of one step for both integrators, position, velocity, orientation and angular velocity; the range of the orientation; the drift of a free agent after any number of steps. Missing: equality.

### C180 Contact of agents in floating point

In floating point two circular or three-circle agents are reported as overlapping exactly when they overlap. An agent that was placed overlaps the others by a few rounding errors at most.

* Modelled: `distance_circles`, `distance_three_circles`, `overlapping_circles` and `overlapping_three_circles` with a rounding after each operation (Model/RoundedContact); `hypot` is any function with an error of two units in the last place.
* Proof: the same calculus of rounding errors; the search for the least of nine distances is exact.
* Theorems: `C180_contact_fails`, `C180_distance_partial`, `C180_apart`, `C180_overlap`, `C180_placed`, `C180_refused`, `C180_three_partial`, `C180_three_placed`, `C180_exact`, `C180_example_overlap`.
* **Disagreement**: The sign is not always right: circles about (1, 0) and (0, 0) with the radii 1 and 2**-54 overlap, but the computed distance is 0. Proved: a bound of the error of the distance for circles and three-circle bodies; the sign is right outside of this error; placed agents overlap by a few rounding errors at most. Missing: the sign within the error.

### C181 Contact with walls in floating point

In floating point the distance of a circle and a wall is the distance to the nearest point of the wall minus the radius up to a few rounding errors, its normal is a number, and the test of overlap with walls is correct up to this error.

* Modelled: `distance_circle_line` and `overlapping_circle_line` with a rounding after each operation (Model/RoundedContact); a NaN normal is `none`.
* Proof: in coordinates of the wall, a wrong choice among the three formulas happens only where they differ by less than the error; integer evaluation of the square root of 13 for the refutation.
* Theorems: `C181_nan_fails`, `C181_distance_partial`, `C181_placed`, `C181_refused`, `C181_exact`.
* **Disagreement**: The normal is not always a number: for the wall from (0, 0) to (2, 3) and an agent whose centre is (0, 0) the computed extent along the wall exceeds the computed length by one unit in the last place, so the code divides zero by zero. Proved: a bound of the error of the distance, also when rounding selects the wrong one of the three formulas, and its consequences for the test of overlap. Missing: the normal, and the sign within the error.

### C182 The tests of interactions see interactions

Each of the six tests of the interactions between agents and of agents with walls can see an interaction: for both agent types some draw of the strategies is such that the tested function adds a force.

* Modelled: the strategy `agents` with the attributes of the tests, and the six tests (Model/InteractionTests), on top of the constructor with observers (Model/BodyType) and the interactions (Model/Interactions).
* Proof: the constructor keeps the given radius and mass; coincident circles have a negative time to collision and a zero normal; for three circles the torso pair is visited first and blocks the search, and is the unique nearest pair; the wall force is that of C17 with a unit normal.
* Theorems: `C182_coincident`, `C182_unchanged`, `C182_tests_fails`, `C182_walls_partial`, `C182_walls_seen_partial`.
* **Disagreement**: False: test_interactions.py draws an attribute named positions, but agents have position. All agents of the tests are therefore at the origin, and agents at the same place exert no force on each other: the normal is zero and the time to collision is negative (for three-circle agents because the pair of torsos is visited first and is the nearest pair). The four tests of pairs and of the block list leave the array unchanged for every draw (C182_unchanged). The two tests of walls can see a force (C182_walls_partial, C182_walls_seen_partial).

### C183 Areas of polygons in floating point

polygon_area computes in float64 the area of a polygon with n vertices whose coordinates are at most M up to an error of 3 n^2 M^2 2^-53, and without any error when the coordinates are multiples of a power of two by integers of at most 20 binary digits. No relative error can be promised: the triangle (1, 1), (1, 0), (1 + 2^-52, 4) has the area 2^-53 and its computed area is zero. The test of polygon_area passes for every convex hull of five points with coordinates between -10 and 10, provided that the area shapely computes is within 1e-9 of the true area.

* Modelled: polygon_area with a rounding to binary64 after each operation, and the assertion of its test; the convex hull and its area by shapely are inputs.
* Proof: Each term of the shoelace sum has an error of at most 6 M^2 u and a magnitude of at most 2 M^2; induction over the loop gives an error of (8k + 2k^2) M^2 u after k terms. On a grid every intermediate result is an integer below 2^53 times a power of two. The counterexample is evaluated with exact rounding lemmas.
* Theorems: `C183_relative_error_fails`, `C183_absolute_error_partial`, `C183_exact_on_grid_partial`, `C183_test_partial`.
* **Disagreement**: The full statement (a relative error of at most one half for every polygon with a positive area) is false: C183_relative_error_fails gives a triangle with coordinates of at most 4 whose computed area is zero. Proved instead: an absolute error bound, exactness on grids, and that the test passes. The number shapely computes is a parameter constrained to be within 1e-9 of the true area; overflow is not modelled.

### C184 The social force is a finite number

For two circular agents of ordinary size and speed (coordinates up to 10**6 m, velocities, radii, masses and factors up to 10**3, time horizons from 10**-3 s) the compiled function force_social_circular raises no exception and returns forces with finite components, neither infinite nor NaN, and not longer than the limit of 2000 N. The statement is false: an agent that touches another and slides past it with a speed of approach near 10**-160 m/s gets a force NaN, or a ZeroDivisionError, depending on the tangential speed. It holds if coordinates, velocities and radii are multiples of 2**-60; and forces with finite components are never longer than 2000 N up to 10**-9 N.

* Modelled: force_social_circular, magnitude, gradient_circle_circle and truncate with IEEE 754 numbers: finite, infinite or NaN (Model/Ieee), a rounding to binary64 after each operation, ZeroDivisionError for the division of numbers by zero.
* Proof: A calculus of bounds: every intermediate result is at most a power of two below 2^1024, and the divisors are multiples of a power of two and so bounded below. The witnesses are evaluated by hand with exact rounding lemmas, one of them subnormal. The length is bounded by splitting on the branch of truncate.
* Theorems: `C184_nan_fails`, `C184_zero_division_fails`, `C184_finite_partial`, `C184_length_partial`.
* **Disagreement**: Refuted by C184_nan_fails (force NaN) and C184_zero_division_fails (ZeroDivisionError, for numba's default error_model='python'). The time to collision is positive only because the square of the approach speed is subnormal and loses its last digits; dividing by its square then overflows or divides by zero. C184_finite_partial: no such failure if coordinates, velocities and radii are multiples of 2**-60. C184_length_partial: forces with finite components respect the limit. Missing: agents whose velocities are not multiples of 2**-60, for which the failure is shown only at the two witnesses.

### C185 The random inputs of the tests

The strategies of crowddynamics.testing draw what they describe: reals draws numbers within the bounds, without zero if it is excluded, alone or in arrays of every float type; unit vectors have length one within the tolerance of their test; points, line strings and polygons have the vertices asked for within the bounds, and holes lie in the convex hull of the shell.

* Modelled: the strategies reals, unit_vectors, points, linestrings and polygons as sets of possible draws, casting to float16, float32 and float64 with overflow to infinity (Model/Strategies), and test_unit_vectors with rounding; hypothesis, Delaunay triangulation and shapely are inputs with contracts.
* Proof: membership in the sets is unfolded; the rounding lemmas show that a small power of two is stored as zero and a large one as infinity; the hole of a polygon uses the result about samples in triangles (C38).
* Theorems: `C185_small_dtype_fails`, `C185_arrays_partial`, `C185_stored_partial`, `C185_bounds`, `C185_reals`, `C185_test_unit_vectors`, `C185_points`, `C185_linestrings`, `C185_polygons`.
* **Disagreement**: Refuted for the smaller float types: reals draws numbers as float64 and stores them in an array of the given type, so that an array of float32 may contain the excluded zero and an array of float16 an infinity. C185_stored_partial bounds the error of storing for every type. The claim holds for the default float64, and the claims about unit vectors, points, line strings and polygons hold in full.

### C186 Names of stored simulations

The default directory of a stored simulation is named after the simulation and the moment at which it was made. Directories of simulations with the same name, sorted as strings, are in chronological order; simulations with different names or made at different moments have different directories; the metadata contain the name and the timestamp.

* Modelled: _default_name, SimulationBase.__init__, _default_timestamp (a datetime in UTC) and str of it, on top of name_with_timestamp and full_path (Model/Timestamp, Model/SaveData).
* Proof: fixed-width numbers compare as their digits, the character + comes before the dot; the calendar is a sum over the lengths of months and years.
* Theorems: `C186_order`, `C186_unique`, `C186_metadata`.

### C187 Undisturbed agents reach the velocity they want, in floating point

Computed in float64, the velocity of a circular agent on which only the adjusting force acts tends to its target velocity times its target direction.

* Modelled: `Model/RoundedWalk`: the nodes Reset, Adjusting and Integrator for one circular agent in float64 (every operation rounded, no overflow), no random force and nobody in reach.
* Proof: The difference to the rounded desired velocity satisfies a recursion of second order (the Verlet method averages the old and the new force) with a disturbance of a few rounding errors per step; the root of its characteristic polynomial is bounded by 1 - dt/tau, and a geometric sum bounds the effect of all disturbances (`walk_bound`). The stall is computed with exact powers of two.
* Theorems: `C187_stall_fails`, `C187_converges_partial`, `C187_limit_partial`, `C187_steady`.
* **Disagreement**: False in float64: an agent that wants 1 m/s and walks at 1 - 2**-53 stays there for ever with the default time step (C187_stall_fails). Proved instead: the difference after j steps is at most 2 (1 - dt/tau)**j times the first difference plus tau/dt times 2**-43 of the speeds (C187_converges_partial), so that in the long run only rounding errors are left (C187_limit_partial); an agent at the rounded desired velocity keeps it exactly (C187_steady). Missing: the limit itself, and time steps of more than 3/10 of the relaxation time.

### C188 Undisturbed three-circle agents turn to the orientation they want

In every run of a shipped simulation, a three-circle agent with the body of a shipped body type that is at rest as to rotation, feels no random torque, is out of reach of everybody and of all walls, and keeps wanting the same orientation, turns to that orientation: the shortest turn that is left tends to 0.

* Modelled: The runs of the shipped simulations with three-circle agents (Model/Simulation, Model/Motion, Model/Integrator) and the construction of body types (Model/BodyType).
* Proof: Newton's law for a turn (C123) gives a three-term recurrence for the angle that is left, the turn of a step and its last change. A quadratic energy with a mixed term shrinks by a factor 1 - min(a, k)/4 in every step, and no full turn can enter: at first because the angle that is left only decreases, later because the energy is too small. For the counterexample the observers of BodyType are followed one by one: none sets the target angular velocity.
* Theorems: `C188_body_types`, `C188_stays`, `C188_fails`, `C188_turns_partial`, `C188_limit_partial`.
* **Disagreement**: The full statement is false of the code (C188_fails): target_angular_velocity (agents.py:92-95) has the default 0 and no section of conf/body_types.cfg sets it (C188_body_types), so the adjusting torque of agents with shipped body types is only a damping of the angular velocity, and an agent that starts turned away from its direction of walking stays so for ever (C188_stays). Proved instead: with a positive target angular velocity of at most 12.5 pi (the literature has 4 pi) and tau_rot of at least 0.08 (the default is 0.2), the angle that is left shrinks geometrically, with explicit rate, from any orientation (C188_turns_partial, C188_limit_partial). Missing: shorter relaxation times and larger angular velocities, relative to the time step of 0.01.

### C189 Velocities and angular velocities of three-circle agents stay bounded forever

In every run of a shipped simulation (other than TestMovement) with three-circle agents, of any length: if the force on an agent besides its adjusting force never exceeds F, its speed never exceeds target_velocity + tau_adj * F / mass; if the torque besides its adjusting torque never exceeds M, its angular velocity never exceeds target_angular_velocity + tau_rot * M / inertia_rot, whatever orientations it wants; both provided it does not start faster. Out of reach of others and of walls the excess is at most three standard deviations of the random force and torque times the relaxation times, and without random force the velocity relaxes to the desired one at least by the factor 1 - dt / (2 tau_adj) per update, whether the agent turns or not.

* Modelled: The runs of the shipped simulations with three-circle agents, as in C188.
* Proof: Newton's laws of a run (C123) are brought to the recursion of C130: the acceleration times the relaxation time is a desired velocity minus the current one. The bounds of C130 and C131 for that recursion apply to the velocity and, embedded into the plane, to the angular velocity, whose desired value is bounded because a shortest turn is at most half a turn.
* Theorems: `C189_speed`, `C189_spin`, `C189_alone`, `C189_relaxes`.

### C190 Neither coordinates nor numbering of three-circle agents matter

If three-circle agents, walls and random directions are turned and moved together and the agents are renumbered, an update of a simulation built from the physical nodes (Reset, Integrator, Fluctuation, Adjusting, AgentAgentInteractions, AgentObstacleInteractions, Orientation) ends in the same way and leads to the turned, moved and renumbered agents, with angles up to full turns. False of the code: exchanging the numbers of two agents that rub against each other changes their torques, and an agent that wants to turn round turns left in one coordinate system and right in another. What holds, for updates and runs of any length and every numbering, if the cell lists find the same pairs with the same first agents (in any order): scenes that are only moved lead to exactly the moved scene, and turned scenes to the turned scene if nobody wants an angular velocity and everybody has a direction.

* Modelled: Updates and runs of simulations with three-circle agents made of the physical nodes (Model/Simulation, Model/Interactions, Model/Distance, Model/PowerLaw, Model/Motion, Model/Integrator).
* Proof: Every function of the update commutes with rotations and translations: the searches for the nearest pair of circles and for the earliest contact visit the circles in the same order and compare equal numbers, the argument of a turned direction is the turned argument up to full turns, and wrap_to_pi and the shoulder positions only depend on the angle up to full turns. For the counterexamples the torques of two concrete scenes are computed in both coordinate systems.
* Theorems: `C190_numbers_fails`, `C190_turn_fails`, `C190_fails`, `C190_moved_partial`, `C190_moved_run_partial`, `C190_turned_partial`, `C190_turned_run_partial`.
* **Disagreement**: False of the code. distance.py:103 builds the arm of the second agent of a pair from the centre of the first agent, so exchanging the numbers of two agents changes the torques (C190_numbers_fails); wrap_to_pi keeps the sign of odd multiples of pi, so an agent that wants to turn round turns left or right depending on the coordinates (C190_turn_fails). Which agent of a pair comes first depends on the order of the cells and hence on the coordinates; the partial theorems allow renumbering and other orders of pairs but assume that the first agent of each pair stays the first. Proved: moved scenes lead to exactly the moved scene, and turned scenes to the turned scene if nobody wants an angular velocity (as with all shipped bodies) and everybody has a direction. Missing: agents that want to turn, and pairs whose agents change their roles.

### C191 Three-circle agents out of sight have no influence

A group of three-circle agents that nobody else comes near (the gap between any two circles stays at least 3) moves and turns in the same way in every crowd: two runs of a shipped simulation without leaders, with different numbers of agents and different others, agree about every attribute of every member of the group after every update, if they agree about it at the start and the same random numbers are drawn for the group.

* Modelled: Runs of the shipped simulations without leaders with three-circle agents (Model/Simulation, Model/Interactions, Model/Distance, Model/Motion, Model/Integrator); two crowds of different size that have a group of agents in common.
* Proof: The sums over all other agents reduce to the members of the group because the force and torque of a pair vanish for a gap of at least 3; every node is then shown to treat the members in the same way in both crowds, and induction over nodes and updates gives the claim. The horizon follows from the bound on the steps, since the shoulders stay attached.
* Theorems: `C191_fails`, `C191_group_partial`, `C191_single_partial`, `C191_horizon_partial`.
* **Disagreement**: False of the code: distance.py:103 builds the arm of the second agent of a pair from the centre of the first (see C123), so the torques on two touching agents depend on which of them the cell lists mention first, and nothing keeps this order the same in another crowd (C191_fails: two agents that rub against each other, listed as (0, 1) or as (1, 0)). The partial theorems add the condition that the pairs within the group are mentioned in the same roles; for a single agent the condition is void (C191_single_partial).

### C192 Three-circle agents do not jump over walls

In no run of a shipped simulation with walls does a circle (torso or shoulder) of a three-circle agent that does not touch a wall pass it in the next update.

* Modelled: Runs of the shipped simulations with three-circle agents, as in C188 and C189.
* Proof: From the limits of C189 follow bounds for the acceleration and so for the step of the torso and for the turn in one update; as the shoulders stay attached, a shoulder moves at most by the step of the torso plus rTs times the turn (a chord is not longer than its arc). A step shorter than the radius cannot meet a segment that is at least a radius away.
* Theorems: `C192_fails`, `C192_no_jump_partial`.
* **Disagreement**: False of the code: neither the velocity nor the angular velocity of an agent is limited, and the integrator does not look at walls; the torso of an agent with 100 m/s half a metre in front of a wall is on the other side after one update (C192_fails). With bounded disturbances (C189) the steps of torso and shoulders are bounded, and circles with a larger radius do not pass a wall they do not touch (C192_no_jump_partial).

### C193 A crowd that walks one way is not turned round

If all leaders (and, with herding, all neighbours) that a follower sees walk in one direction, up to 48 degrees, then the direction that LeaderFollower or LeaderFollowerWithHerding gives to the follower has a component in this direction that is not negative, with an explicit lower bound; if they walk in exactly the same direction then the new direction is at most 42 degrees off, and without leaders in sight at most 11 degrees.

* Modelled: The model of `collective_motion.py` (`Model/CollectiveMotion`). The claim is stated with the cone of vectors that point onward (`Spec/Herd`).
* Proof: `C43_herding_direction` first says exactly which direction the node with herding computes. The cone is convex; the mixture of a unit vector in it with an arbitrary one is estimated, sharply for one common direction (the square `((1 - w) t + w)^2` is the deficit).
* Theorems: `C193_leader`, `C193_leader_same`, `C193_herd`, `C193_herd_same`.

### C194 Driven three-circle agents get ahead and leave the field

In every run of a shipped simulation (other than TestMovement) with three-circle agents: if what drives an agent (the velocity it wants plus everything that disturbs it) always points at rate c or more in a direction then after k updates the agent has advanced by dt * k * c in this direction, up to a constant; an agent out of reach of others and of walls advances as soon as its target velocity outweighs the random force, and so leaves every bounded domain and is marked as not active from an explicit update on. How the agent turns does not matter.

* Modelled: Runs of the shipped simulations with three-circle agents, as in C188 and C189.
* Proof: The velocities and positions of the torso obey the recursion of C147 (`body_way`), in which the rotation does not appear, so that the telescoping sum of C147 and the limits of C189 give the claim.
* Theorems: `C194_progress`, `C194_alone`, `C194_leaves`.

### C195 Three-circle agents change no total momentum by pushing each other

In every run of a shipped simulation (other than TestMovement) with three-circle agents that have the same mass, social, contact and friction parameters, every update changes the total momentum by exactly 0.01 / 2 times the sum of the outside forces (random, adjusting, walls) of this and the last update, whichever torsos and shoulders touch and although the rotations of the agents are driven with wrong arms (C123).

* Modelled: Runs of the shipped simulations with three-circle agents, as in C188 and C189.
* Proof: The specification of the forces between bodies does not determine them (C123 uses the arms of the code), so the balance is proved node by node: for each node of the order there is one effect for every agent, and those of the node for forces between agents add up to zero (C29). Newton's law for the single agents (C123) then gives the balance of momentum.
* Theorems: `C195_momentum`.

### C196 The tests of the test simulations pass

Both tests in test_validation.py pass for both types of agents: after 1000 updates, which raise no exception, the first agent of TestMovement is at least 10 metres and that of TestAgentInteraction at least 8 metres from its start (or within the tolerance of isclose).

* Modelled: the two tests of `examples/tests/test_validation.py` (assertion, exit condition, run) on top of the models of C140 and C141.
* Proof: the movement test from C140; the standoff by an invariant of the position and the last two half-step velocities of the first agent (bounds for overlap, speed and rebound), which one update preserves; the forces along the line come from C113 (Newton), C141 (symmetry) and C160 (the social force slows the approach).
* Theorems: `C196_movement_partial`, `C196_ends_partial`, `C196_standoff`, `C196_interaction_fails`, `C196_fails`.
* **Disagreement**: False of the code: if the random forces push both circular agents along the line on which they walk, equally strongly and towards opposite sides (all of them zero, for instance), the agents stop each other and never pass, for any number of updates; the first one stays between -2.9 and 2.305 metres, so that test_agent_interaction, which demands 8 metres, fails (C196_standoff, C196_interaction_fails, C196_fails). Proved: test_movement passes for both types of agents, the agent walks exactly ten metres; the run of the interaction test always ends after 1000 updates without an exception. Missing: whether the interaction test passes for other draws, for instance with sideways random forces, and for three-circle agents.

### C197 Nobody jumps over another agent

In a run, two agents whose bodies do not overlap do not change sides in the next update: while both move straight from their old to their new positions, each stays on the side of the other on which it was.

* Modelled: No new model: runs of the shipped simulations as in C130 to C132.
* Proof: The displacement bound of C132 for both agents and the Cauchy-Schwarz inequality for the relative position; the bound of the forces on an agent that touches nothing comes from the cap of the social force. The counterexample bounds the push of the social force in the one update of the witness.
* Theorems: `C197_no_swap_partial`, `C197_untouched_partial`, `C197_fails`.
* **Disagreement**: Nothing in the code limits the speed of an agent, and the social force is capped at 2000 N, so a fast agent (100 m/s in the witness) passes through another one in one update. What holds: two agents keep their sides if what they can move in an update (with the speed limit of C130) is less than the sum of their radii; while they touch nothing the forces are bounded by the code (2000 N per other agent). Missing: a bound for agents in contact, whose contact forces have no limit.

### C198 Contacts push bodies apart

The force that overlapping agents exert on each other, and that a wall exerts on an agent that overlaps it, never pulls the agent towards the other one or the wall; across it is friction that acts against the slip.

* Modelled: interaction_agent_agent_circular, agent_circular_obstacle and agent_three_circle_obstacle, with force_contact and the distances they use (Model/Interactions). Specification: Spec/Contact (speed of approach, slip, nearest point of a wall).
* Proof: The contact force is split along the unit normal into mu times overlap minus damping times approach speed, and across into friction (contact_parts); overlapping circular agents have no collision ahead, hence no social force (overlapping_force). Refuted by two agents who overlap by 1 mm.
* Theorems: `C198_agents_partial`, `C198_walls_partial`, `C198_body_walls_partial`, `C198_pulled_together_fails`, `C198_fails`.
* **Disagreement**: False of the code: the damping term of force_contact has the sign of the velocity along the normal, so it amplifies an approach. With the constants of the code an overlap of 1 mm repels only below 0.24 m/s; two pedestrians who walk towards each other with 1.3 m/s each are pulled together at the first touch. Proved: the exact condition damping * approach speed <= mu * overlap for agents and walls, and that the tangential part is friction. Missing: faster approaches.

### C199 Walls do not speed anybody up

In a run, an agent who wants to stand still, on whom no random force acts and who is out of reach of all other agents, is never faster than at the start.

* Modelled: The whole update of the shipped simulations (as for C130), in exact arithmetic.
* Proof: Positive part from the relaxation of C131 with target speed zero (coasting). Refutation: the motion across a corridor is reduced to a recursion on rational triples (position, velocity, last acceleration; squeezing_rational), which the kernel evaluates over 567 updates (squeezing_inside, squeezing_outside).
* Theorems: `C199_free_partial`, `C199_fails`.
* **Disagreement**: False of the code: because the damping term adds energy, a pedestrian who stumbles in a corridor of 60 cm width (body 50 cm wide, 80 kg, constants of the code, wants to stand still) gets from 1.3 m/s to more than 4 m/s within 567 updates. Proved: without contact the speed only decreases, with a rate. Missing: contacts with walls.

### C200 Walls hold those between them

In a run, an agent with the contact constants of the code, of radius at least 0.2 m and mass at least 50 kg, who starts clear of all walls with at most 2 m/s, wants to stand still, and is out of reach of all other agents, never passes a wall.

* Modelled: As C199.
* Proof: Positive part: steps before the first contact are shorter than the radius (coasting, short_step). Refutation: the same run as for C199; the step of update 567 crosses the wall.
* Theorems: `C200_first_contact_partial`, `C200_fails`.
* **Disagreement**: False of the code: the pedestrian of C199 passes through the wall of the corridor in update 567 (after 5.67 seconds). The run is computed exactly, in rational numbers, from the proved equations of motion. Proved: no wall is passed up to and including the update that leads to the first contact. Missing: what happens after the first contact.

### C201 Three-circle agents do not jump over each other

In a run, circles (torsos or shoulders) of two three-circle agents that do not overlap do not change sides in the next update: while both move straight from their old to their new positions, each stays on the side of the other on which it was.

* Modelled: No new model: runs of the shipped simulations with three-circle agents as in C189 and C192.
* Proof: The displacement bounds of C192 for torsos and shoulders and the Cauchy-Schwarz inequality for the relative position, as in C197; the bound of the force on an agent whose circles touch nothing comes from the cap of the social force. The counterexample bounds the push of the social force in the one update of the witness.
* Theorems: `C201_no_swap_partial`, `C201_untouched_partial`, `C201_fails`.
* **Disagreement**: Nothing in the code limits the speed of an agent, so the torso of a fast agent (100 m/s in the witness) passes through that of another one in one update. What holds: two circles keep their sides if what they can move in an update (with the limits of speed and angular velocity of C189) is less than the sum of their radii; for torsos the forces are bounded by the code as long as no circle touches anything (2000 N per other agent). Missing: bounds for agents in contact, whose contact forces have no limit, and for shoulders, since the torques of social forces use wrong arms (C123) and are not small.

### C202 A wall stops an agent who walks against it

In every run of a shipped simulation with circular agents, however long, an agent who stays beside a straight wall is stopped by it, although the damping term of the contact force pulls the agent on: its centre never sinks in by more than a given depth less than its radius and never passes the wall, if the constants of the agent satisfy stated inequalities and everything else that acts on it is bounded. With the constants of the code and the body of any shipped body type, an agent who is out of reach of the others, touches no other wall and wants to walk wherever it likes keeps its centre at least 4 cm away from the wall and never moves towards it faster than 2.7 m/s.

* Modelled: No new model: runs of the shipped simulations with circular agents as in C130, in exact arithmetic.
* Proof: The distance from the wall, the velocity and the mean velocity of the last step, all upright to the wall, form a recursion (the integrator is symplectic Euler in the mean velocities). An invariant with four cases (WalkState: free, leaving, shallow, deep) is kept by free updates (walk_free) and by contact updates (walk_touch): outside, the speed towards the wall stays below the driving speed; in a shallow contact its square grows at most linearly with the depth; in a deep one each update brakes by at least a constant. The constants of the code satisfy the inequalities for all shipped bodies (shipped_stops, C16).
* Theorems: `C202_stopped`, `C202_shipped`.

### C203 The forces of the interactions are finite

For circular agents and walls of ordinary size (coordinates up to 10**6 m, velocities, radii, masses and factors up to 10**3, contact constants up to 10**6, time horizons from 10**-3 s) the compiled functions agent_agent_circular and agent_circular_obstacle raise no exception and leave forces with finite components. The statement is false: an agent whose centre is the end of the wall from (0, 0) to (2, 3) gets the force NaN, and two agents that slide past each other (see C184) both get the force NaN. It holds if coordinates, velocities and radii are multiples of 2**-60 and no centre is an end of a wall, for any number of pairs and walls with 2 * pairs + agents * walls + 1 < 2**53. Then the forces are those of the rounded operations without overflow.

* Modelled: interaction_agent_agent_circular, agent_agent_circular, interaction_agent_circular_obstacle and agent_circular_obstacle with distance_circles, distance_circle_line and force_contact, in IEEE arithmetic with infinities, NaN and exceptions (Model/IeeeContact); the column force is passed on separately from the other attributes, which the interactions do not change.
* Proof: Each operation is bounded by a power of two (IsNum); lengths of differences that are not zero are at least 2**-61 because of the grid; the sum of m forces stays below m * 2**304, which is a float as long as m < 2**53, so that rounding does not exceed it (SumNum.add). The same steps give equality with the rounded layer (Model/Rounded, Model/RoundedWalls). The refutations use the witnesses of C181 and C184.
* Theorems: `C203_wall_fails`, `C203_pair_fails`, `C203_finite_partial`.
* **Disagreement**: False of the code: distance_circle_line divides zero by zero when the centre of an agent is an end of a wall and rounding makes the extent along the wall larger than its length, and interaction_agent_circular_obstacle adds the NaN to the force; the NaN of the social force of C184 also reaches the column force. Proved for attributes that are multiples of 2**-60 and centres off the ends of walls. Missing: three-circle agents, and floats that are no such multiples.

### C204 A force that is not a number stays with its agent

For circular agents with any positions, velocities and forces (infinities and NaN included), target velocities up to 2**10 and 0 <= dt_min <= dt_max <= 2**10: adaptive_timestep raises no exception and returns a number between dt_min and dt_max; agents whose attributes are finite and at most 2**400 have finite positions and velocities after euler_integrator and velocity_verlet_integrator, whatever the other agents are; if all agents are such, the results are those of the rounded operations without overflow; an agent whose speed is NaN counts as one at rest, so the time step and the results of all other agents are those of the same crowd with that agent standing still; and an agent that gets the force NaN in one coordinate in one update has position and velocity NaN in this coordinate after this update and after every later one, with any forces and either integrator, while no update raises an exception.

* Modelled: adaptive_timestep, translational_euler, translational_verlet and the two integrators for circular agents in IEEE arithmetic with infinities, NaN and exceptions (Model/IeeeMotion).
* Proof: The largest speed is never NaN because every comparison with NaN is false, so the quotient dx_max / v_max is never NaN and both bounds apply (adaptiveTimestepI_num). Finite rows are bounded operation by operation as in C203. NaN is absorbing for addition, multiplication and division, and the next position and velocity contain the velocity and the force in this coordinate; the sequence of updates is an induction. For finite crowds the values found on the way are those of the rounded layer (C204_refines). The example joins this with the NaN force of C203.
* Theorems: `C204_timestep`, `C204_finite`, `C204_refines`, `C204_lost`, `C204_others`.

### C205 An agent that is not a number has no influence

A circular agent whose position and velocity are NaN in one coordinate (see C203, C204) exerts no force on others and gets none from others or from walls; a run with any number of updates is the same if the pairs of neighbours with this agent are left out, and it stays lost; with a fixed time step (the default) all other agents move as if this agent were not in the array, with the same exceptions. For finite agents the interactions are those of C203.

* Modelled: The circular part of a whole update in IEEE arithmetic (Model/IeeeCrowd): positions, velocities and forces are any float64; random forces, target directions and pairs of neighbours are inputs.
* Proof: hypot of a difference with NaN is NaN or infinite, so the distance of a pair is never below the sight; the dot products with a wall are NaN, so both comparisons fail and the distance to the wall is NaN. The loops over walls and over the adjusting force are shown to change each entry separately (foldl_update), the loop over pairs commutes with leaving out an index (agentAgentCircularG_comp), and with dt_min = dt_max the time step is the same (adaptiveTimestepI_num).
* Theorems: `C205_no_force`, `C205_pairs`, `C205_removed`, `C205_finite`.

### C206 An update of an ordinary crowd is finite

For circular agents and walls of ordinary size (coordinates up to 2**20 m, velocities and radii up to 2**10, multiples of 2**-60, other attributes within wide bounds) with no centre on the end of a wall, a whole update (random force, adjusting force, interactions with agents and walls, integrator, reset) in IEEE arithmetic raises no exception, leaves all attributes finite, and gives the result of the rounded operations without overflow. With a fixed time step this holds for these agents also if there is one more agent in the array whose position and velocity are NaN in one coordinate.

* Modelled: The update of C205 (updateI), compared with an update in rounded arithmetic without overflow (updateF in Model/RoundedUpdate).
* Proof: The adjusting force is bounded operation by operation; C203 bounds the sums of the forces by 2**357, C204 the integrator. The part with a lost agent combines this with C205.
* Theorems: `C206_update`, `C206_beside_lost`.

### C207 An agent who presses against a wall comes to rest

In a shipped simulation that runs on for ever, a circular agent without random force, alone beside a straight wall, who always wants to walk straight against this wall, comes to rest there: its speed tends to zero. This is false of the code. The damping term of the contact force has the wrong sign and feeds the motion across the wall, with the constants of the code more than the adjusting force takes from it. For every such agent, of any mass between 50 and 90 kg, any radius of at least 19 cm and any target velocity between 0.4 and 1.75 m/s, the opposite holds: again and again, without end, it moves across the wall with more than a thousandth of its target velocity, it lets go of the wall again and again, and comes back to it again and again. It does stay at the wall: it never sinks in by more than 15 cm, and never moves into it faster than 2.7 m/s.

* Modelled: No new model: endless runs of the shipped simulations with circular agents as in C202, in exact arithmetic.
* Proof: Distance and velocity upright to the wall form the recursion of C202 (structure Rattle; wall_press, wall_rattle). If the agent stayed in contact from some update on, the mean velocities of the steps would satisfy a linear recurrence of order three with constant coefficients. A root of it splits off by the intermediate value theorem, and what remains is a recurrence of order two whose solutions are unbounded or zero (growing_zero, by a quadratic form that grows by a fixed factor per update). The bounds of C202 rule out the first, and the way into the contact rules out the second (Rattle.lets_go). Without contact the adjusting force drives the agent back (Rattle.comes_back, by a sum that does not change). Right after an update without contact an agent cannot stay slower than a thousandth of its target velocity for two updates more (Rattle.restless). The counterexample is the marching leader of C202.
* Theorems: `C207_rattles_partial`, `C207_fails`.
* **Disagreement**: The claim is false of the code (C207_fails): the damping term of force_contact has the wrong sign, so an agent who presses against a wall rattles against it without end. C207_rattles_partial shows this for all bodies of ordinary size with the constants of the code, and what remains true (the agent stays at the wall). Not covered: other constants, a random force, three-circle agents, and several walls at once.

### C208 A wall stops an agent who walks against it, in floating point

With float64 arithmetic, rounding after each operation, an agent who walks straight against an upright wall is stopped by it, however many updates are made, although the damping term of the contact force pulls the agent on. With the constants of the code (adjusting time 0.5, contact strength 1.2e5, damping 500, time step 0.01), any mass between 50 and 90 kg, any radius between 19 cm and 1 m and any target velocity between 0.4 and 1.7 m/s, an agent who starts clear of the wall never sinks in by more than 15.1 cm, so that its centre stays at least 3.9 cm away from the wall, never moves towards the wall faster than 2.71 m/s, never gets further away than 1010 m, does not leave its line, and gets no force that is not a number. It does get to the wall, and comes back whenever it is thrown off: from each moment on, at most 260000 updates pass until it touches the wall. Nothing overflows: if infinities, NaN and exceptions are modelled too, the run is the same.

* Modelled: Runs of the rounded update of C206 (Model/RoundedUpdate, Model/RoundedRun) for one agent and one wall, with float64 rounding after each operation, correctly rounded hypot and, in C208_stopped and C208_returns, no overflow; C208_finite is about the model with overflow (Model/IeeeCrowd). The random forces are zero and the direction is constant.
* Proof: The computed update is reduced to its first coordinate (upright_distance, press_update). Each rounding error is bounded (near64, near_mul), which gives the computed acceleration, velocity and position up to 1e-7, 1e-12 and 1e-12 (press_force_near, press_speed_near, press_move_near). The computed contact begins at a distance that differs from the radius by less than 1e-12 (contact_threshold), since computed distances are multiples of the smallest float. The mean velocities of the steps, computed from the positions, then satisfy the inequalities of C202 (walk_free, walk_touch) with constants that leave room for the errors (press_step); bounds for speed, acceleration and distance, which the error bounds need, are part of the same invariant (PressState). While the wall is not touched, a mixture of distance and velocity falls by 0.0079 in each update (press_fall), so the agent comes back to the wall (press_again). With the bounds of the invariant no operation overflows (upright_distanceI, updateI_single, press_runI).
* Theorems: `C208_stopped`, `C208_returns`, `C208_finite`.

### C209 Turns by right angles and reflections change no digit

In floating point, if agents, walls, random forces and target directions are all turned by a multiple of 90 degrees, or reflected in an axis or a diagonal, the agents after any number of updates are the turned or reflected ones, digit by digit, and a force is not a number in the one run if and only if it is in the other. This remains so when numbers overflow, become infinite or not a number, or an exception is raised. Hence walls stop agents who walk straight against them (C208) from all four sides.

* Modelled: Runs of the rounded update (Model/RoundedUpdate, Model/RoundedRun) with any rounding, hypot and exp; the cell list is a parameter (pairs), the same for both runs. C209_overflow is about the runs of Model/IeeeCrowd, with infinities, NaN and exceptions.
* Proof: Every step of the computation is either an odd function of the components, the same for both axes (AxisLike.lin), or depends on vectors through the rounded dot product and the length, which do not change. The quarter turns in the normal of a wall and in the tangent of a contact change their sign under reflections; the sign drops out, since the normal is multiplied by the sign of the distance and the friction is even in the tangent (line, contact_flip). The parts are put together along the update (AxisLike.update) and by induction on the number of updates (AxisLike.run). The proof for the model with overflow has the same parts (AxisLikeI); each operation of Model/Ieee commutes with the change of signs (F64.pack_neg, F64.mul_neg_left, F64.div_neg_left).
* Theorems: `C209_symmetry`, `C209_overflow`, `C209_walls`.

### C210 Mirror images stay mirror images in floating point

Two circular agents without walls who are mirror images of each other (with respect to an axis, a diagonal or the origin) and have the same parameters are mirror images after any number of updates, digit by digit, if their random forces and target directions are, whichever of the two the cell list yields first. In particular two agents who are opposite with respect to the origin never drift: the sums of their positions and of their velocities are exactly zero for ever.

* Modelled: As C209, for two agents and no walls; the random forces and target directions are the same in each update.
* Proof: By C166 the order of the two agents does not matter, and by the symmetry of C209 the forces of the mirrored pair are the mirrored forces; together the second force is the mirror image of the first (mirror_forces). The rest of the update treats each agent alike (mirror_update); induction on the number of updates (mirror_run).
* Theorems: `C210_mirror`, `C210_no_drift`.

### C211 The order of the pairs has no influence in floating point

The order in which the cell list yields the pairs of neighbours, and with it the numbering of the agents, has no influence on the computed forces between circular agents. In exact arithmetic this holds (C133); in floating point it is false, since sums depend on the order. What holds: for two orders of the pairs, the force on an agent differs in each coordinate by no more than 2^-51 of the sum of the sizes of the forces on it, for each pair it belongs to, nothing else differs, and an agent with a single neighbour in sight gets the same force digit by digit.

* Modelled: agent_agent_circular with rounding after each operation (Model/Rounded, agentAgentCircularF); the list of pairs is a parameter.
* Proof: The forces of a pair do not depend on the forces that are there, so each agent gets its forces one after the other in the order of the pairs (interactions_addAll); the error of a sum in floating point is bounded by induction (sum_error) and both orders have the same exact sum (order_error). The witness uses three agents on a line with exact contact forces.
* Theorems: `C211_fails`, `C211_order_partial`, `C211_single_partial`.
* **Disagreement**: False of the code, witness proved (C211_fails): an agent with the force -17/64 on it has a neighbour that adds 17/64 and one that adds -2^-56; if the weak push comes first it is lost in rounding, otherwise it is what remains. So simulations with renumbered agents are not the same digit by digit. C211_order_partial bounds the difference, C211_single_partial shows equality for agents with a single neighbour.

### C212 The numbers of the agents have no influence of their own in floating point

If the agents are numbered differently and the pairs of neighbours come in the same order as before, every agent moves exactly as before, digit by digit, for any number of updates, and the same exceptions are raised. The numbering matters only through the order in which the cell list yields the pairs (C211): neither the loops over agents for the adjusting force and the walls, nor the largest speed and the largest target velocity that the time step is computed from, nor the integrator depend on it.

* Modelled: Runs of the update of Model/IeeeCrowd, with infinities, NaN and exceptions. The pairs that the cell list yields are a parameter.
* Proof: The loops over the agents change each agent on its own (agentCircularObstacleG_apply, forceAdjustAgentsI_ok, forceAdjustAgentsI_error). Each interaction of a pair changes two entries (addForceI_renumber). The comparison in the loop for the largest speed never takes a NaN, and two steps of it may be exchanged (larger_comm), so the loop does not depend on the order (vMaxLoopI_renumber); the same holds for the maximum of the target velocities (npMax_perm). The parts are put together for one update (updateI_renumber) and by induction (runI_renumber).
* Theorems: `C212_numbering`.

### C213 Which agent of a pair comes first has no influence in floating point

Exchanging the two different agents of a pair leaves the force that each of them gets exactly as it was, digit by digit, and the same exceptions are raised. Hence runs in which the pairs come in the same order, but with the agents of some pairs exchanged, are equal for any number of updates; together with C212, numbering the agents differently changes nothing as long as the cells yield the same pairs of agents in the same order, whichever of the two comes first.

* Modelled: The interaction of two circular agents of Model/IeeeCrowd and runs of its update, with infinities, NaN and exceptions. Zero has no sign in this model. The pairs that the cell list yields are a parameter.
* Proof: Exchanging the agents negates the relative position and velocity exactly (vsubI_turn). Negation is one of the maps of C209 (negLikeI), so products, the gradient, the contact force and the limit on the length commute with it. All exceptions of the social force are the same one (magnitudeI_error, truncateI_error), so their order does not matter (social_turn, pairG_turn). The additions change two different entries (interactionG_turn); lists of pairs and of updates follow by induction.
* Theorems: `C213_pair`, `C213_run`, `C213_numbering`.

### C214 Only the order in which each agent meets the others matters, and symmetric crowds stay symmetric

If every agent meets the same agents in the same order in two lists of pairs, the runs are equal digit by digit and raise the same exceptions, however the pairs are interleaved and whichever agent of a pair comes first. Hence a crowd of any size that a reflection at an axis or a diagonal or a turn by a multiple of 90 degrees maps to itself stays exactly symmetric for any number of updates, if the random forces and directions are symmetric, each wall is its own image, and each agent meets the others in the order in which its image meets their images. In particular agents in single file on an axis, with walls on this axis only, never leave it by a single digit (unless an overflow makes the coordinate NaN).

* Modelled: Runs of the update of Model/IeeeCrowd, with infinities, NaN and exceptions. After an exception the model has no array, so what a partly executed loop leaves behind is not compared. The pairs that the cell list yields are a parameter; that the lists of a symmetric crowd meet the condition on the order is assumed, not derived from the cell list.
* Proof: By induction on the pairs the loop is written agent by agent: it raises the exception if some meeting does, and otherwise each agent adds up its own meetings in order (interactionG_cases, interactionsG_partners, with C213 for the second agent of a pair). All exceptions are the same one (pairG_error). C214_symmetric compares the mapped run (C209_overflow) with the renumbered run (C212). Agents on an axis are their own mirror images (C214_single_file).
* Theorems: `C214_partners`, `C214_symmetric`, `C214_single_file`.

### C215 An agent who is infinitely far away has no influence

A circular agent with a coordinate that is infinite or NaN (after an overflow), whatever its velocity is, exerts no force on others, gets none from others or from walls, and causes no exception in the interactions. In a run of any number of updates it never gets back to a finite position, and the run is the same if its pairs are left out; with a fixed time step (the default) all other agents move as if it were not in the array. Its distance from an upright wall is infinite with a normal of length one that points to its side. This extends C205, which is about agents whose position and velocity are NaN.

* Modelled: The interactions and runs of Model/IeeeCrowd, with infinities, NaN and exceptions. Zero has no sign in this model.
* Proof: Sums, differences and products with an infinite or undefined operand are infinite or undefined (wild_add, wild_sub, wild_mul), and hypot and the absolute value of these are plus infinity or NaN, even after the radii are subtracted (beyond_hypot, beyond_abs, beyond_add), so no comparison with the distance holds (nowhere_line, nowhere_pair). The integrator adds to the position (nowhere_stays). Removing the agent from the array follows the proof of C205 (nowhere_updateI_without). For the normal each operation is evaluated (upright_infinite).
* Theorems: `C215_no_force`, `C215_run`, `C215_removed`, `C215_normal`.
