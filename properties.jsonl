{"id": "C01", "title": "Angle wrapping lands in [-pi, pi] and never changes the angle", "statement": "wrap_to_pi(x) is in [-pi, pi], differs from x by an integer multiple of 2*pi, sends odd positive multiples of pi to pi and odd negative multiples to -pi, is an odd function, and is idempotent.", "quantifier": "for every real angle x", "why_tests_cant": "The interesting inputs (exact odd multiples of pi, both signs, arbitrarily many turns) form an infinite set; sampled floats almost never hit them.", "anchors": ["crowddynamics/core/vector2D.py:wrap_to_pi"]}
{"id": "C02", "title": "Vector helpers obey the Euclidean laws the force code relies on", "statement": "rotate90/rotate270 are mutually inverse isometries perpendicular to their argument; normalize returns a vector of length 1 with the same direction (the zero vector is returned unchanged); truncate(v, l) leaves v if |v| <= l and otherwise gives a vector of length exactly l in the same direction.", "quantifier": "for all 2-D vectors and all l >= 0", "why_tests_cant": "The laws are equalities over the whole plane; property tests only sample, and the zero vector and |v| = l cases are measure zero.", "anchors": ["crowddynamics/core/vector2D.py:rotate90", "crowddynamics/core/vector2D.py:rotate270", "crowddynamics/core/vector2D.py:normalize", "crowddynamics/core/vector2D.py:truncate", "crowddynamics/core/vector2D.py:length", "crowddynamics/core/vector2D.py:dot", "crowddynamics/core/vector2D.py:cross"]}
{"id": "C03", "title": "Angles and unit vectors are inverse representations", "statement": "angle(unit_vector(phi)) equals wrap_to_pi(phi) (up to the -pi/pi representative), unit_vector(phi) has length 1, angle(v) is in (-pi, pi], and unit_vector(angle(v)) equals normalize(v) for v nonzero.", "quantifier": "for all angles and all nonzero vectors", "why_tests_cant": "A round-trip law over a continuum with a branch cut.", "anchors": ["crowddynamics/core/vector2D.py:angle", "crowddynamics/core/vector2D.py:unit_vector", "crowddynamics/core/vector2D.py:wrap_to_pi", "crowddynamics/core/vector2D.py:normalize"]}
{"id": "C04", "title": "weighted_average returns a unit vector (documented normalisation)", "statement": "The documentation of weighted_average states that the weighted mean of two unit vectors is normalised to a unit vector.", "quantifier": "for all pairs of unit vectors and weights in [0, 1]", "why_tests_cant": "Tests that use parallel vectors or weights 0/1 cannot see that no normalisation takes place.", "anchors": ["crowddynamics/core/vector2D.py:weighted_average"]}
{"id": "C05", "title": "polygon_area is the shoelace area and a geometric invariant", "statement": "polygon_area is half the absolute shoelace sum, is nonnegative, 0 below three vertices, unchanged by translation, rotation, reversal, and by starting the vertex list elsewhere, scales quadratically, and is additive when a polygon is cut along a diagonal (signed area).", "quantifier": "for every vertex list of every length", "why_tests_cant": "Unbounded vertex count and arbitrary coordinates.", "anchors": ["crowddynamics/core/geom2D.py:polygon_area"]}
{"id": "C06", "title": "line_intersect decides whether two segments meet", "statement": "line_intersect(x0, x1, y0, y1) is True exactly when the closed segments [x0,x1] and [y0,y1] share a point, and the answer does not depend on the order of segments or endpoints.", "quantifier": "for all four endpoints in the plane", "why_tests_cant": "Touching endpoints, collinear and degenerate segments are measure-zero configurations.", "anchors": ["crowddynamics/core/geom2D.py:line_intersect"]}
{"id": "C07", "title": "Line of sight is blocked exactly when some obstacle crosses it", "statement": "is_obstacle_between_points(p0, p1, obstacles) is True iff some obstacle segment (not parallel to the line of sight) meets the segment p0-p1; it is symmetric in p0/p1, independent of the order of obstacles, and monotone when obstacles are added.", "quantifier": "for all points and obstacle lists of any length", "why_tests_cant": "Unbounded obstacle lists and all orders.", "anchors": ["crowddynamics/core/sensory_region.py:is_obstacle_between_points", "crowddynamics/core/geom2D.py:line_intersect"]}
{"id": "C08", "title": "distance_circles is the exact skin-to-skin distance", "statement": "The returned h is |x0-x1| - (r0+r1): negative exactly when the open discs overlap; exchanging the circles keeps h and negates the normal, and the normal is a unit vector unless the centres coincide, in which case it is zero.", "quantifier": "for all centres and radii", "why_tests_cant": "Continuum of configurations including coinciding centres.", "anchors": ["crowddynamics/core/distance.py:distance_circles"]}
{"id": "C09", "title": "distance_three_circles is the minimum over all nine circle pairs, with the documented moment arms", "statement": "The returned h is the least of the nine pairwise skin distances, attained by a pair (i, j) whose unit normal n is returned; the moment arms are, as documented, x0[i] + r0[i]*n - x0[torso] and x1[j] - r1[j]*n - x1[torso]; h does not depend on the order of the agents.", "quantifier": "for all three-circle agents", "why_tests_cant": "The arm of the second agent is only wrong away from coinciding torsos, and existing tests only check shapes.", "anchors": ["crowddynamics/core/distance.py:distance_three_circles"]}
{"id": "C10", "title": "distance_circle_line is the Euclidean distance to the wall segment minus the radius", "statement": "For a wall with distinct endpoints h + r equals the minimum distance from the centre to any point of the closed segment, and the normal is the unit vector from the closest wall point to the centre (zero if the centre is on the wall).", "quantifier": "for all centres, radii and walls of positive length", "why_tests_cant": "Case split between the interior and the two end caps, with boundaries that sampled inputs do not hit.", "anchors": ["crowddynamics/core/distance.py:distance_circle_line"]}
{"id": "C11", "title": "distance_three_circle_line is the minimum over torso and shoulders", "statement": "The returned h is the least of the three circle-wall skin distances, and the moment arm is the vector from the torso centre to the contact point on the minimising circle.", "quantifier": "for all three-circle agents and walls of positive length", "why_tests_cant": "Which circle is closest depends on continuous data.", "anchors": ["crowddynamics/core/distance.py:distance_three_circle_line"]}
{"id": "C12", "title": "Block list: nearest() returns exactly the stored values in the surrounding cells, each once", "statement": "After any history of insertions and queries, nearest(p, radius) returns, as a multiset, exactly the values inserted at points whose cell index differs from that of p by at most radius in every coordinate, and lookups never change what later lookups return.", "quantifier": "for all histories of insertions and lookups, all dimensions, all cell sizes > 0 and all radii >= 0", "why_tests_cant": "Quantifies over operation histories and over all points, including negative coordinates.", "anchors": ["crowddynamics/core/block_list.py:MutableBlockList"]}
{"id": "C13", "title": "Block list: no point within the search distance is ever missed", "statement": "Every value stored at a point whose coordinates each differ from those of p by at most radius*cell_size is in nearest(p, radius), and every returned value was stored at a point closer than (radius+1)*cell_size in each coordinate.", "quantifier": "for all insertion histories, points, cell sizes > 0 and radii >= 0", "why_tests_cant": "Missing a neighbour needs points straddling particular cell borders.", "anchors": ["crowddynamics/core/block_list.py:MutableBlockList"]}
{"id": "C14", "title": "Circular agents are placed without overlaps", "statement": "After any sequence of add_non_overlapping_group calls for circular agents, no two placed agents overlap and no placed agent overlaps an obstacle, provided the sum of any two radii is at most the cell size given to Agents.", "quantifier": "for all sequences of groups, position generators, obstacle lists and cell sizes", "why_tests_cant": "Depends on an unbounded history of random positions; the neighbour search is a spatial index whose misses are rare.", "anchors": ["crowddynamics/simulation/agents.py:Agents.add_non_overlapping_group", "crowddynamics/simulation/agents.py:overlapping_circles", "crowddynamics/simulation/agents.py:overlapping_circle_line"]}
{"id": "C15", "title": "Agents never overlap whatever their size", "statement": "Agents placed with add_non_overlapping_group do not overlap, whatever radii the group attributes specify.", "quantifier": "for all groups, radii and position generators", "why_tests_cant": "All shipped body types have radii for which the default index is wide enough, so shipped examples never show the miss.", "anchors": ["crowddynamics/simulation/agents.py:Agents.add_non_overlapping_group", "crowddynamics/simulation/agents.py:Agents.__init__"]}
{"id": "C16", "title": "Shipped body types are safe with the default placement cell size and interaction cell size", "statement": "Every radius that the shipped body types can be assigned is positive and at most 0.29, all three circles of such an agent lie within that radius of its centre, hence two such agents that overlap have centres within the default cell size 0.6 and two that interact have centres within the default interaction cell size 3.6.", "quantifier": "for all shipped body types and all values the truncated normal distribution can produce", "why_tests_cant": "The random radius takes a continuum of values.", "anchors": ["crowddynamics/conf/body_types.cfg", "crowddynamics/simulation/agents.py:BodyType", "crowddynamics/simulation/logic.py:AgentAgentInteractions", "crowddynamics/core/interactions.py:agent_agent_block_list"]}
{"id": "C17", "title": "Placement always terminates and its bookkeeping is exact, even if it is interrupted", "statement": "add_non_overlapping_group asks for at most 11*size positions, places at most size agents, stops early only after 10*size rejected positions, grows the array by exactly size rows, leaves previously placed agents untouched, and if the position generator raises part way the agents placed so far remain valid and indexed.", "quantifier": "for all groups, position generators (finite or infinite) and interruption points", "why_tests_cant": "Interruption points and adversarial generators cannot be enumerated by tests.", "anchors": ["crowddynamics/simulation/agents.py:Agents.add_non_overlapping_group"]}
{"id": "C18", "title": "Three-circle agents are placed with their shoulders attached and without overlaps", "statement": "After placement every three-circle agent has its shoulders at distance r_ts on both sides of its position, and no two placed agents overlap.", "quantifier": "for all groups of three-circle agents and all position generators", "why_tests_cant": "Only goes wrong when a first candidate position is rejected; tests with sparse placement never retry.", "anchors": ["crowddynamics/simulation/agents.py:Agents.add_non_overlapping_group", "crowddynamics/simulation/agents.py:ThreeCircle._default_position_ls", "crowddynamics/simulation/agents.py:ThreeCircle._default_position_rs", "crowddynamics/simulation/agents.py:ThreeCircle.overlapping"]}
{"id": "C19", "title": "The adaptive time step always lies in [dt_min, dt_max]", "statement": "adaptive_timestep returns a value in [dt_min, dt_max], returns dt_max when nobody moves (or there is nobody), never lets an agent move further than 1.1 times the largest target speed times dt_max unless the lower bound dt_min applies, and does not depend on the order of agents.", "quantifier": "for all crowds of any size and all 0 < dt_min <= dt_max", "why_tests_cant": "Unbounded crowds and extreme velocities.", "anchors": ["crowddynamics/core/integrator.py:adaptive_timestep"]}
{"id": "C20", "title": "The Euler integrator is exact for constant acceleration", "statement": "With constant force the Euler step gives exactly x + v*dt + a*dt^2/2 and v + a*dt, so n steps of size dt equal one step of size n*dt; mass, radii and targets are never changed.", "quantifier": "for all states, forces, masses > 0, time steps and numbers of steps", "why_tests_cant": "Statement about every trajectory length.", "anchors": ["crowddynamics/core/integrator.py:translational_euler", "crowddynamics/core/integrator.py:euler_integrator"]}
{"id": "C21", "title": "The velocity Verlet integrator is exact for constant acceleration", "statement": "Velocity Verlet integration reproduces x + v*t + a*t^2/2 and v + a*t exactly for constant acceleration.", "quantifier": "for all states, accelerations, time steps and step counts", "why_tests_cant": "The existing tests only check the size of displacements, not their value.", "anchors": ["crowddynamics/core/integrator.py:translational_verlet", "crowddynamics/core/integrator.py:velocity_verlet_integrator"]}
{"id": "C22", "title": "Orientation stays in [-pi, pi] and shoulders stay attached", "statement": "After every velocity Verlet step of three-circle agents each orientation is in [-pi, pi], the shoulder midpoint is the agent position, each shoulder is at distance r_ts from it and the shoulder axis is perpendicular to the heading, whatever forces and torques were applied.", "quantifier": "for all initial states, all histories of forces/torques and all numbers of steps", "why_tests_cant": "An invariant over unbounded histories.", "anchors": ["crowddynamics/core/integrator.py:rotational_verlet", "crowddynamics/core/integrator.py:velocity_verlet_integrator", "crowddynamics/simulation/agents.py:shoulders"]}
{"id": "C23", "title": "Both integrators rotate three-circle agents", "statement": "For an array of three-circle agents created through Agents, euler_integrator and velocity_verlet_integrator both advance orientation and shoulders.", "quantifier": "for all three-circle agent arrays", "why_tests_cant": "The integrator test fixtures build arrays from the module constant dtype, for which the identity test succeeds.", "anchors": ["crowddynamics/core/integrator.py:euler_integrator", "crowddynamics/core/integrator.py:velocity_verlet_integrator", "crowddynamics/simulation/agents.py:is_model", "crowddynamics/simulation/agents.py:AgentType.dtype"]}
{"id": "C24", "title": "Time to collision is exactly the first time the two discs touch", "statement": "If time_to_collision_circle_circle reports tau then at time tau the centres are exactly r_tot apart and, when tau > 0, they are farther apart at every earlier nonnegative time; if the discs are apart and their straight-line motion ever makes them overlap, a positive tau is reported.", "quantifier": "for all relative positions, velocities and radii", "why_tests_cant": "Quantifies over all times of a continuous motion.", "anchors": ["crowddynamics/core/motion/power_law.py:time_to_collision_circle_circle"]}
{"id": "C25", "title": "The circular social force is the negative gradient of the anticipation energy, capped", "statement": "Whenever force_social_circular returns a nonzero force it is the vector -m*grad_x(k/tau^2*exp(-tau/tau_0)) of the documented interaction energy, truncated to length at most F_SOC_MAX = 2000; it is zero when no collision is predicted within 30 s.", "quantifier": "for all pairs of agents", "why_tests_cant": "A derivative identity over a continuum of configurations; tests only check the magnitude.", "anchors": ["crowddynamics/core/motion/power_law.py:force_social_circular", "crowddynamics/core/motion/power_law.py:gradient_circle_circle", "crowddynamics/core/motion/power_law.py:magnitude"]}
{"id": "C26", "title": "Social forces obey Newton's third law and Galilean invariance", "statement": "For agents with equal mass, k and tau_0 the two social forces are exactly opposite; in every case they are antiparallel, swapping the agents swaps the forces, and adding a common velocity or displacement changes nothing.", "quantifier": "for all pairs of agents (circular and three-circle)", "why_tests_cant": "Equalities over a continuum.", "anchors": ["crowddynamics/core/motion/power_law.py:force_social_circular", "crowddynamics/core/motion/power_law.py:force_social_three_circle"]}
{"id": "C27", "title": "Three-circle social force reacts to the earliest predicted contact", "statement": "If some pair of circles of the two agents will collide, force_social_three_circle reacts to the earliest positive collision time among the nine pairs.", "quantifier": "for all pairs of three-circle agents", "why_tests_cant": "It fails only when an earlier-examined circle pair has a collision time in the past.", "anchors": ["crowddynamics/core/motion/power_law.py:force_social_three_circle"]}
{"id": "C28", "title": "Contact forces repel, friction dissipates and damping damps", "statement": "For overlapping bodies (h < 0) the elastic part of force_contact pushes along the normal, the friction part never adds kinetic energy, and the damping part never adds kinetic energy.", "quantifier": "for all overlaps, velocities, unit normals and nonnegative coefficients", "why_tests_cant": "Sign errors in a small damping term are invisible in sampled magnitudes.", "anchors": ["crowddynamics/core/motion/contact.py:force_contact", "crowddynamics/core/interactions.py:interaction_agent_agent_circular"]}
{"id": "C29", "title": "Agent-agent interactions conserve momentum and do not depend on pair order", "statement": "For agents with equal physical parameters one pass of agent-agent interactions leaves the sum of all forces unchanged; the resulting forces do not depend on the order in which pairs are visited; nothing but force (and torque) is changed.", "quantifier": "for all crowds of any size and all pair orders", "why_tests_cant": "Quantifies over schedules (pair orders) and crowd sizes.", "anchors": ["crowddynamics/core/interactions.py:interaction_agent_agent_circular", "crowddynamics/core/interactions.py:agent_agent_circular", "crowddynamics/core/interactions.py:agent_agent_block_list"]}
{"id": "C30", "title": "The cell-list shortcut equals the all-pairs computation", "statement": "Visiting only the pairs produced by the cell list gives the same forces and torques as visiting all pairs, provided the cell size is at least 3 plus the sum of the two largest radii; pairs farther apart than the sight distance 3 have no effect.", "quantifier": "for all crowds of any size and every pair enumeration that contains all pairs in adjacent cells once", "why_tests_cant": "The equality is over all configurations; a missed pair requires special positions.", "anchors": ["crowddynamics/core/interactions.py:agent_agent_block_list", "crowddynamics/core/interactions.py:agent_agent_circular", "crowddynamics/core/interactions.py:agent_agent_three_circle", "crowddynamics/simulation/logic.py:AgentAgentInteractions"]}
{"id": "C31", "title": "Wall interactions act only on touching agents and do not depend on order", "statement": "agent_obstacle adds to each agent exactly the sum of the contact forces (and torques) of the walls it overlaps, independent of wall and agent order; agents that overlap no wall are unchanged.", "quantifier": "for all crowds and obstacle lists", "why_tests_cant": "Unbounded lists and all orders.", "anchors": ["crowddynamics/core/interactions.py:agent_obstacle", "crowddynamics/core/interactions.py:agent_circular_obstacle", "crowddynamics/core/interactions.py:interaction_agent_circular_obstacle"]}
{"id": "C32", "title": "Adjusting force relaxes towards the desired velocity; adjusting torque turns the short way", "statement": "The adjusting force vanishes exactly at the desired velocity and an explicit step of size dt in [0, tau] never increases the distance to it; without spin the adjusting torque vanishes exactly at the target orientation, at the target orientation it vanishes exactly without spin, it is odd under mirroring, is bounded and aims at turning through the shortest angle in [-pi, pi].", "quantifier": "for all velocities, targets, masses and relaxation times > 0", "why_tests_cant": "Continuum and wrap-around cases.", "anchors": ["crowddynamics/core/motion/adjusting.py:force_adjust", "crowddynamics/core/motion/adjusting.py:torque_adjust"]}
{"id": "C33", "title": "Random fluctuation is bounded", "statement": "The fluctuation force on an agent never exceeds 3*mass*std_rand_force and the fluctuation torque never exceeds 3*inertia*std_rand_torque in absolute value.", "quantifier": "for all random draws the truncated normal can return", "why_tests_cant": "Rare draws are never sampled.", "anchors": ["crowddynamics/core/motion/fluctuation.py:force_fluctuation", "crowddynamics/core/motion/fluctuation.py:torque_fluctuation", "crowddynamics/core/rand.py:truncnorm"]}
{"id": "C34", "title": "Exit capacity is a monotone step function", "statement": "narrow_exit_capacity is nonnegative, zero when the door is narrower than an agent, nondecreasing in door width, nonincreasing in agent diameter, a whole multiple of the coefficient, and the layered form with layer width equal to the agent diameter agrees with the simple form.", "quantifier": "for all door widths, agent diameters > 0, layer widths > 0 and coefficients >= 0", "why_tests_cant": "Step boundaries are measure zero.", "anchors": ["crowddynamics/core/evacuation.py:narrow_exit_capacity"]}
{"id": "C35", "title": "agent_closer_to_exit counts the agents that are closer", "statement": "For agents with pairwise different distances the returned number of each agent is exactly the number of agents strictly closer to the exit; in general the result is a permutation of 0..n-1 compatible with the distances.", "quantifier": "for all crowds and every sorting permutation argsort may choose", "why_tests_cant": "Unbounded n and unspecified tie order.", "anchors": ["crowddynamics/core/evacuation.py:agent_closer_to_exit"]}
{"id": "C36", "title": "Exit detection picks the nearest visible exit in range", "statement": "exit_detection selects for every agent the closest exit that is strictly within the detection range and not hidden by an obstacle, the lowest index on ties, and reports none exactly when there is no such exit.", "quantifier": "for all agents, exits and obstacles", "why_tests_cant": "Unbounded lists, ties.", "anchors": ["crowddynamics/core/evacuation.py:exit_detection", "crowddynamics/simulation/logic.py:ExitDetection"]}
{"id": "C37", "title": "poisson_clock yields exactly the ticks before dt; poisson_timings orders all ticks", "statement": "poisson_clock yields in increasing order exactly the partial sums of the drawn intervals that are smaller than dt; poisson_timings yields every agent as many times as its clock ticks in nondecreasing tick time.", "quantifier": "for all interval draws, horizons and numbers of agents", "why_tests_cant": "Quantifies over all random streams.", "anchors": ["crowddynamics/core/rand.py:poisson_clock", "crowddynamics/core/rand.py:poisson_timings"]}
{"id": "C38", "title": "Sampled points lie inside the triangle / polygon / segment", "statement": "random_sample_triangle returns a point of the closed triangle, random_sample_line a point of the segment, polygon_sample a point of the convex hull of the polygon vertices, and linestring_sample a point of the line string.", "quantifier": "for all triangles and segments, all triangulations of positive total area with corners among the vertices, all line strings whose last segment has a positive length, and all random numbers in [0, 1)", "why_tests_cant": "All random draws.", "anchors": ["crowddynamics/core/sampling.py:random_sample_triangle", "crowddynamics/core/sampling.py:random_sample_line", "crowddynamics/core/sampling.py:polygon_sample", "crowddynamics/core/sampling.py:linestring_sample"]}
{"id": "C39", "title": "polygon_sample chooses triangles with probability proportional to area", "statement": "The set of random numbers in [0,1) for which polygon_sample chooses a given triangle of its mesh is an interval of length area/total area; the chosen index is always valid.", "quantifier": "for all triangle meshes of positive total area", "why_tests_cant": "A measure statement about all random numbers.", "anchors": ["crowddynamics/core/sampling.py:triangle_area_cumsum", "crowddynamics/core/sampling.py:polygon_sample"]}
{"id": "C40", "title": "linestring_sample samples all parts of a line string", "statement": "linestring_sample chooses each segment of the line string with probability proportional to its length.", "quantifier": "for all line strings with at least two vertices", "why_tests_cant": "For a single segment (as tested) there is nothing to choose.", "anchors": ["crowddynamics/core/sampling.py:linestring_length_cumsum", "crowddynamics/core/sampling.py:linestring_sample"]}
{"id": "C41", "title": "Neighbour search returns the k nearest visible agents", "statement": "find_nearest_neighbors returns for each agent the k nearest agents that are within sight and not hidden by an obstacle (all of them, padded, if fewer than k).", "quantifier": "for all crowds, obstacle lists, k >= 1 and pair orders", "why_tests_cant": "Streaming top-k selection over all orders.", "anchors": ["crowddynamics/core/steering/collective_motion.py:find_nearest_neighbors", "crowddynamics/core/steering/collective_motion.py:set_neighbor"]}
{"id": "C42", "title": "Herding classification is symmetric and herding directions are unit vectors or zero", "statement": "herding_relationship gives swapped answers when the two agents are swapped, and herding_interaction gives only followers a direction, which is a unit vector or zero.", "quantifier": "for all agents, velocities and neighbour tables", "why_tests_cant": "Continuum of configurations.", "anchors": ["crowddynamics/core/steering/collective_motion.py:herding_relationship", "crowddynamics/core/steering/collective_motion.py:herding_interaction"]}
{"id": "C43", "title": "Leader following copies only visible leaders and leaves leaders alone", "statement": "The leader following nodes never change anything of a non-follower. A follower looks at the leaders in sight that count for it (visible ones not heading for it, and its remembered leader when hidden): if the nearest of these is visible the follower remembers it, gives up its target and gets a direction mixed from the position and velocity; otherwise it copies the target of its remembered leader, or uses its familiar exit if it remembers none. No target is invented.", "quantifier": "for all crowds, obstacle lists and target assignments", "why_tests_cant": "All crowds and visibility patterns.", "anchors": ["crowddynamics/core/steering/collective_motion.py:leader_follower_interaction", "crowddynamics/core/steering/collective_motion.py:leader_follower_interaction_brute", "crowddynamics/simulation/logic.py:LeaderFollower"]}
{"id": "C44", "title": "Logic nodes run children first, each exactly once per update", "statement": "One update runs every node of the logic tree exactly once, every node after all of its descendants; injecting a node before/after another makes it run right after/before that node and preserves the set of other nodes.", "quantifier": "for all logic trees and all sequences of tree edits", "why_tests_cant": "All trees and edit histories.", "anchors": ["crowddynamics/simulation/base.py:LogicNodeBase", "crowddynamics/simulation/multiagent.py:MultiAgentSimulation.update"]}
{"id": "C45", "title": "iterations and time_tot account exactly for the completed updates", "statement": "After a run data[\"iterations\"] is the number of completed updates, the run stops at the first moment the exit condition holds, time_tot is the sum of all dt, so time_tot lies between iterations*dt_min and iterations*dt_max; an exception in a node leaves iterations at the number of completed updates.", "quantifier": "for all exit conditions, crowds, histories and exception points", "why_tests_cant": "Unbounded runs and crash points.", "anchors": ["crowddynamics/simulation/multiagent.py:MultiAgentSimulation.update", "crowddynamics/simulation/base.py:SimulationBase.run", "crowddynamics/simulation/logic.py:Integrator"]}
{"id": "C46", "title": "A consumer of the process queue always receives the end marker exactly once", "statement": "When a MultiAgentProcess finishes for whatever reason, exactly one end marker is put in the queue, after all other items.", "quantifier": "for all simulations, stop times and exceptions", "why_tests_cant": "Stop times and exceptions form an unbounded set of schedules.", "anchors": ["crowddynamics/simulation/multiagent.py:MultiAgentProcess.run", "crowddynamics/simulation/multiagent.py:MultiAgentProcess.stop"]}
{"id": "C47", "title": "The inactive counter counts inactive agents", "statement": "After any number of InsideDomain updates data[\"inactive\"] equals the number of agents outside the domain.", "quantifier": "for all trajectories of all crowds", "why_tests_cant": "Fails only for agents that leave and come back.", "anchors": ["crowddynamics/simulation/logic.py:InsideDomain"]}
{"id": "C48", "title": "TargetReached can be used with polygon targets", "statement": "A simulation with polygon targets can add the TargetReached node, which then counts agents that reached each target.", "quantifier": "for all fields with polygon targets", "why_tests_cant": "There are no tests for the node.", "anchors": ["crowddynamics/simulation/logic.py:TargetReached"]}
{"id": "C49", "title": "Saved npy frames are the frames that were sent", "statement": "The files written by the save_npy coroutine contain, in order, exactly the arrays that were sent up to the last dump, with their values at the time of sending, even though the simulation keeps updating the agent array in place.", "quantifier": "for all histories of sends, dump flags and in-place updates", "why_tests_cant": "Aliasing only shows when a frame is buffered while the array is updated in place.", "anchors": ["crowddynamics/io.py:save_npy", "crowddynamics/simulation/logic.py:SaveSimulationData"]}
{"id": "C50", "title": "Numbered npy files are read back in numeric order", "statement": "load_npy(dir, basename) yields exactly the files written by save_npy for that basename, in numeric order of their index.", "quantifier": "for all basenames and numbers of files", "why_tests_cant": "Depends on the characters of the basename.", "anchors": ["crowddynamics/io.py:find_npy_files", "crowddynamics/io.py:load_npy", "crowddynamics/io.py:save_npy"]}
{"id": "C51", "title": "CSV logging is durable up to the last dump and never reorders or repeats rows", "statement": "At any crash point the csv file contains the header followed by exactly the rows sent up to the last dump, in order, each once.", "quantifier": "for all send/dump histories and crash points", "why_tests_cant": "Crash points and histories are unbounded.", "anchors": ["crowddynamics/io.py:save_csv"]}
{"id": "C52", "title": "Geometry saved to json can be loaded again", "statement": "load_geometry_json returns the geometries that save_geometry_json stored.", "quantifier": "for all dictionaries of geometries", "why_tests_cant": "No test loads a saved file with a single geometry.", "anchors": ["crowddynamics/io.py:save_geometry_json", "crowddynamics/io.py:load_geometry_json", "crowddynamics/io.py:geometry_mapping", "crowddynamics/io.py:geometry_shape"]}
{"id": "C53", "title": "Body dimensions stay consistent however attributes are set", "statement": "After any sequence of assignments to radius and to the ratios, whenever radius and a ratio are positive the torso radius, shoulder radius and torso-shoulder distance equal ratio*radius.", "quantifier": "for all assignment sequences", "why_tests_cant": "Order of attribute assignment is unbounded.", "anchors": ["crowddynamics/simulation/agents.py:BodyType"]}
{"id": "C54", "title": "Rotational inertia matches mass and radius", "statement": "inertia_rot always equals the documented formula of the current mass and radius.", "quantifier": "for all assignment sequences", "why_tests_cant": "Only later re-assignment reveals the stale value.", "anchors": ["crowddynamics/simulation/agents.py:BodyType._observe_inertia_rot"]}
{"id": "C55", "title": "Field caches return what a fresh computation would return", "statement": "As long as the field is not modified, cached navigation queries return the same value as a fresh computation for every history of queries; after a modification they return the value for the modified field.", "quantifier": "for all histories of queries and field modifications", "why_tests_cant": "Histories with evictions and modifications are unbounded.", "anchors": ["crowddynamics/simulation/field.py:Field.navigation_to_target", "crowddynamics/simulation/field.py:Field.meshgrid"]}
{"id": "C56", "title": "Every position in the domain maps to a valid grid cell; others keep their direction", "statement": "Positions inside the bounds used for the mesh grid map to an index inside the grid whose node is less than one step away; navigation changes only agents with that target, and agents outside of the grid keep their direction.", "quantifier": "for all bounds, steps > 0 and positions", "why_tests_cant": "Border positions and truncation towards zero.", "anchors": ["crowddynamics/core/steering/quickest_path.py:meshgrid", "crowddynamics/core/steering/navigation.py:getdefault", "crowddynamics/simulation/logic.py:Navigation"]}
{"id": "C57", "title": "Obstacle handling produces unit directions and uses the target direction outside the radius", "statement": "The merged direction is a unit vector or undefined, equals the target direction at or beyond the radius from obstacles, and inside mixes both with weight strength^(distance/radius) between strength and 1; the per-agent variant computes the same mixture.", "quantifier": "for all direction maps, distance maps, radii > 0 and strengths in (0, 1)", "why_tests_cant": "Continuum of maps.", "anchors": ["crowddynamics/core/steering/obstacle_handling.py:obstacle_handling", "crowddynamics/core/steering/obstacle_handling.py:obstacle_handling_continuous"]}
{"id": "C58", "title": "Line segments of a geometry cover the whole outline", "statement": "geom_to_linesegment yields for a line string all consecutive vertex pairs and for multi-part geometries the concatenation of the parts, so n vertices give n-1 segments; polygons contribute every ring.", "quantifier": "for all geometries of any nesting", "why_tests_cant": "Recursive structure.", "anchors": ["crowddynamics/core/geometry.py:geom_to_linesegment"]}
{"id": "C59", "title": "geom_to_array encodes every supported geometry without loss", "statement": "geom_to_array succeeds for points, line strings, polygons and their multi-part versions and the array determines the geometry.", "quantifier": "for all geometries", "why_tests_cant": "Recursive structure and a generator that silently yields nothing.", "anchors": ["crowddynamics/core/geometry.py:geom_to_array", "crowddynamics/core/geometry.py:_geom_to_array"]}
{"id": "C60", "title": "Drawing a geometry only writes the given value", "statement": "After draw_geom every grid cell either keeps its old value or holds the given value.", "quantifier": "for all geometries, grids and values", "why_tests_cant": "Only polygons with holes on non-zero backgrounds reveal the defect.", "anchors": ["crowddynamics/core/geometry.py:draw_geom", "crowddynamics/core/steering/quickest_path.py:distance_map"]}
{"id": "C61", "title": "Density estimates conserve the number of agents", "statement": "density_classical returns a grid whose entries times the cell area add up to the number of points; density_voronoi averages each cell over the Voronoi areas of the agents in it.", "quantifier": "for all point sets", "why_tests_cant": "Index shifts depend on coordinates.", "anchors": ["crowddynamics/core/quantities.py:density_classical", "crowddynamics/core/quantities.py:density_voronoi_1", "crowddynamics/core/quantities.py:density_voronoi_2"]}
{"id": "C62", "title": "The working directory is always restored", "statement": "remember_cwd restores the previous working directory, as long as that directory still exists, when the body ends normally or with any exception, also when nested.", "quantifier": "for all bodies, nesting depths and exception points", "why_tests_cant": "Exception points.", "anchors": ["crowddynamics/utils.py:remember_cwd"]}
{"id": "C63", "title": "Each command line simulation command runs the simulation it is named after", "statement": "For every discovered simulation class the generated command runs that class.", "quantifier": "for all sets of simulation classes", "why_tests_cant": "With one class there is no difference.", "anchors": ["crowddynamics/cli.py:simulation_commands"]}
{"id": "C64", "title": "Agents can be rebuilt from their array representation", "statement": "Assigning the fields of an agent array back to a new agent with from_array reproduces all field values although assigning radius, mass and ratios triggers dependent updates.", "quantifier": "for all agents", "why_tests_cant": "Observer order.", "anchors": ["crowddynamics/simulation/agents.py:AgentType.from_array", "crowddynamics/simulation/agents.py:AgentType.__array__"]}
{"id": "C65", "title": "Inactive agents no longer take part in the simulation", "statement": "Agents that moved outside the domain are marked inactive and (as documented) not used to compute any of the simulation logic.", "quantifier": "for all crowds", "why_tests_cant": "Requires long runs with agents leaving.", "anchors": ["crowddynamics/simulation/logic.py:InsideDomain", "crowddynamics/core/interactions.py:agent_agent_block_list", "crowddynamics/core/integrator.py:velocity_verlet_integrator"]}
{"id": "C66", "title": "Stepping the whole circular simulation keeps every body attribute and never creates or loses agents", "statement": "For every number of updates of a simulation built from the shipped nodes, the number of agents, their radii and masses stay the same and after each update all forces and torques are zero (reset).", "quantifier": "for all initial crowds, fields and numbers of updates", "why_tests_cant": "Unbounded runs.", "anchors": ["crowddynamics/simulation/logic.py:Reset", "crowddynamics/simulation/logic.py:Integrator", "crowddynamics/simulation/multiagent.py:MultiAgentSimulation.update"]}
{"id": "C67", "title": "Members of a group get their attributes in order", "statement": "An AgentGroup with size n and generator attributes gives the i-th member the i-th generated attribute set, and always has n members.", "quantifier": "for all sizes and attribute sources", "why_tests_cant": "Construction notifies several times; a stateless attribute callable hides it.", "anchors": ["crowddynamics/simulation/agents.py:AgentGroup"]}
{"id": "C68", "title": "Followers who find an exit become independent for good", "statement": "Under any sequence of ExitDetection and LeaderFollower steps an agent that stopped being a follower never becomes one again and every target written is a valid exit index or copied from another agent.", "quantifier": "for all crowds and histories", "why_tests_cant": "Histories.", "anchors": ["crowddynamics/simulation/logic.py:ExitDetection", "crowddynamics/simulation/logic.py:LeaderFollower"]}
{"id": "C69", "title": "Moment arms reach the contact point", "statement": "For two three-circle agents that touch, the moment arms returned by distance_three_circles lead from the torso centre to the point of contact (as they do for walls).", "quantifier": "for all touching three-circle agents", "why_tests_cant": "Needs an independent geometric notion of contact point.", "anchors": ["crowddynamics/core/distance.py:distance_three_circles", "crowddynamics/core/distance.py:distance_three_circle_line", "crowddynamics/core/interactions.py:interaction_agent_agent_three_circle"]}
{"id": "C70", "title": "Every row of the agent array is an agent that was placed", "statement": "After add_non_overlapping_group returns, the array that the rest of the simulation iterates over contains exactly the placed agents.", "quantifier": "for all groups and position generators for which the call returns normally", "why_tests_cant": "Only visible when a group does not fit, which happens with a probability that depends on the random positions; the leftover rows look like agents of radius 0 at the origin.", "anchors": ["crowddynamics/simulation/agents.py:Agents.add_non_overlapping_group"]}
{"id": "C71", "title": "The gradient returned with the time to collision is the gradient of the time to collision", "statement": "The second result of time_to_collision_circle_circle (gradient_circle_circle) is the gradient of tau with respect to the relative position, as documented.", "quantifier": "for all relative positions, velocities and radii with a predicted collision", "why_tests_cant": "A derivative over a continuum; no test checks the sign of this vector, only the resulting force.", "anchors": ["crowddynamics/core/motion/power_law.py:gradient_circle_circle", "crowddynamics/core/motion/power_law.py:time_to_collision_circle_circle"]}
{"id": "C72", "title": "The three-circle social force is the negative gradient of the anticipation energy, capped", "statement": "If one pair of circles makes the earliest contact and the force is nonzero, force_social_three_circle returns -m times the gradient of the documented energy of that contact, truncated to length 2000.", "quantifier": "for all pairs of three-circle agents whose shoulders are attached", "why_tests_cant": "A derivative identity; it fails only when a shoulder takes part in the first contact.", "anchors": ["crowddynamics/core/motion/power_law.py:force_social_three_circle", "crowddynamics/core/motion/power_law.py:gradient_three_circle"]}
{"id": "C73", "title": "Points sampled in a triangle are uniformly distributed", "statement": "For two independent uniform random numbers the probability that random_sample_triangle returns a point of the subtriangle with corners a, a+t(b-a) and a+t((1-s)(b-a)+s(c-a)) equals the ratio of the areas of the subtriangle and the triangle.", "quantifier": "for all nondegenerate triangles and all s, t in [0,1]", "why_tests_cant": "A statement about probabilities for a continuum of triangles and subtriangles; tests only check that samples are inside.", "anchors": ["crowddynamics/core/sampling.py:random_sample_triangle"]}
{"id": "C74", "title": "An agent that comes straight towards another is not taken for one that heads away", "statement": "herding_relationship does not report that an agent heads away when the angle between its velocity and the direction to the other agent is less than phi.", "quantifier": "for all positions, nonzero velocities and angles 0 < phi <= pi", "why_tests_cant": "The failing angle (exactly zero) is a single value out of a continuum.", "anchors": ["crowddynamics/core/steering/collective_motion.py:herding_relationship"]}
{"id": "C75", "title": "Agents are spawned away from obstacles", "statement": "Every point generated by Field.sample_spawn(index, radius) has at least the distance radius from every obstacle, as documented (\"without overlapping with obstacles\").", "quantifier": "for all spawns, obstacles, radii and random numbers", "why_tests_cant": "Random samples hit the forbidden region only with some probability, and only if it is inside of the convex hull of the rest.", "anchors": ["crowddynamics/simulation/field.py:Field._samples", "crowddynamics/simulation/field.py:Field.sample_spawn"]}
{"id": "C76", "title": "Direction maps point along the gradient and stay defined near obstacles", "statement": "direction_map returns at each cell the unit vector along the gradient of the distance map (exactly so for affine distance maps, also at the border), and merging with the obstacle directions gives a defined direction at every cell that has a defined target direction.", "quantifier": "for all distance maps and cells", "why_tests_cant": "Undefined cells lie on single lines of the grid; a NaN then spreads silently through forces and positions.", "anchors": ["crowddynamics/core/steering/quickest_path.py:direction_map", "crowddynamics/core/steering/obstacle_handling.py:obstacle_handling"]}
{"id": "C77", "title": "Navigation works in a field without obstacles", "statement": "For a field with a domain and targets navigation_to_target returns a direction map also if the field has no obstacles (obstacles is None is allowed and handled by the other logic nodes).", "quantifier": "for all fields, targets and parameters", "why_tests_cant": "A whole class of inputs raises; every example in the repository has obstacles.", "anchors": ["crowddynamics/simulation/field.py:Field.navigation_to_target", "crowddynamics/core/steering/quickest_path.py:shortest_path"]}
{"id": "C78", "title": "Injecting a logic node keeps the order in which the other nodes run", "statement": "Injecting a new node into a logic tree with inject_before or inject_after changes the order of no two other nodes.", "quantifier": "for all logic trees and nodes", "why_tests_cant": "The shipped simulations inject only at the root or at nodes without siblings; the order of siblings after an injection is not tested.", "anchors": ["crowddynamics/simulation/base.py:LogicNodeBase.inject_before", "crowddynamics/simulation/base.py:LogicNodeBase.inject_after"]}
{"id": "C79", "title": "Looking up a logic node by name", "statement": "logic[name] finds the same node from every node of the tree; it finds a node if and only if one has that name, and raises KeyError otherwise.", "quantifier": "for all logic trees, names and starting nodes", "why_tests_cant": "Tests look up one name in one tree.", "anchors": ["crowddynamics/simulation/base.py:LogicNodeBase.__getitem__"]}
{"id": "C80", "title": "Nobody becomes a leader or a follower during a run", "statement": "Whatever tree of shipped nodes a simulation has, no update makes an agent a leader or stops it from being one, and no update makes an agent a follower that was none.", "quantifier": "for all simulations, run lengths and exceptions", "why_tests_cant": "Unbounded runs over all trees of nodes.", "anchors": ["crowddynamics/simulation/logic.py:LeaderFollower", "crowddynamics/simulation/logic.py:ExitDetection", "crowddynamics/core/steering/collective_motion.py"]}
{"id": "C81", "title": "References to targets and leaders stay valid", "statement": "If every agent starts with target and familiar exit missing or an index of a target, and leader missing or an index of an agent, then this holds after every run of any tree of shipped nodes, so no later lookup is out of range.", "quantifier": "for all simulations, run lengths and exceptions", "why_tests_cant": "Unbounded runs over all trees of nodes and crowds.", "anchors": ["crowddynamics/simulation/logic.py:ExitDetection", "crowddynamics/simulation/logic.py:LeaderFollower", "crowddynamics/simulation/logic.py:LeaderFollowerWithHerding"]}
{"id": "C82", "title": "Concatenated data can be loaded again", "statement": "After the command concat_npy stored its result, load_npy still loads the numbered files (so that the command can be repeated).", "quantifier": "for all basenames and directories", "why_tests_cant": "Requires running the command twice in one directory.", "anchors": ["crowddynamics/cli.py:concat_npy", "crowddynamics/io.py:find_npy_files", "crowddynamics/io.py:load_npy_concatenated"]}
{"id": "C83", "title": "Saving and loading agents is a round trip", "statement": "Loading the files of a basename returns exactly the frames sent up to the last dump, in order, provided arrays are not changed while buffered, the basename has no digits and no other files carry the name.", "quantifier": "for all histories and numbers of dumps", "why_tests_cant": "Unbounded histories; more than ten files are needed to see the numeric order.", "anchors": ["crowddynamics/io.py:save_npy", "crowddynamics/io.py:load_npy"]}
{"id": "C84", "title": "save_npy writes into the directory it was given", "statement": "The files appear in the given directory under the given basename.", "quantifier": "for all directory names and basenames", "why_tests_cant": "Only names with braces show the defect.", "anchors": ["crowddynamics/io.py:save_npy"]}
{"id": "C85", "title": "Voronoi regions are made finite, one per point", "statement": "voronoi_finite_polygons_2d returns one region per point in the order of the points, keeps all vertices, leaves finite regions unchanged, and gives every other region its finite corners plus one new vertex per open ridge; the new vertex lies on the ridge, away from the other points.", "quantifier": "for all consistent Voronoi diagrams, radii and sort orders", "why_tests_cant": "The loop appends vertices while it indexes them; diagrams vary without bound.", "anchors": ["crowddynamics/core/quantities.py:voronoi_finite_polygons_2d"]}
{"id": "C86", "title": "Importing simulations finds all simulation classes of a directory", "statement": "import_simulations(dir_path) returns every proper subclass of MultiAgentSimulation that a python file of the directory dir_path binds, and nothing else.", "quantifier": "for all directories, files and module contents", "why_tests_cant": "The interesting cases are directories other than the current one and names bound in several files.", "anchors": ["crowddynamics/cli.py:import_simulations", "crowddynamics/utils.py:import_subclasses", "crowddynamics/utils.py:filter_cls"]}
{"id": "C87", "title": "Signatures with parameters without default are rejected", "statement": "parse_signature yields all parameters except self in order, and raises InvalidType if one of them has no default.", "quantifier": "for all signatures", "why_tests_cant": "Functions with defaults everywhere do not show the difference.", "anchors": ["crowddynamics/utils.py:parse_signature", "crowddynamics/utils.py:mkspec"]}
{"id": "C88", "title": "The number of runs is respected", "statement": "run --num n command runs the simulation of the command n times.", "quantifier": "for all n and all commands", "why_tests_cant": "With the default n = 1 there is no difference.", "anchors": ["crowddynamics/cli.py:run", "crowddynamics/cli.py:simulation_commands"]}
{"id": "C89", "title": "Structured dtypes have one field for each trait", "statement": "class_to_struct_dtype makes a dtype with exactly one field for each trait that is visible in the class hierarchy and not excluded, in the order of the hierarchy, with the dtype and shape of the trait; for the shipped agent types these are the fields that the numba functions read.", "quantifier": "for all class hierarchies and exclusion functions", "why_tests_cant": "Only the shipped hierarchies are tested; overriding a trait is not.", "anchors": ["crowddynamics/traits.py:class_to_struct_dtype", "crowddynamics/traits.py:class_traits", "crowddynamics/traits.py:trait_to_dtype", "crowddynamics/simulation/agents.py:AgentType.dtype"]}
{"id": "C90", "title": "Target directions are always zero or unit vectors", "statement": "The validators accept exactly arrays of the right shape and length and do not change them, so that the target direction of an agent has length zero or one (up to the tolerance) whatever is assigned.", "quantifier": "for all sequences of assignments", "why_tests_cant": "Sequences with rejected values.", "anchors": ["crowddynamics/traits.py:shape_validator", "crowddynamics/traits.py:length_validator", "crowddynamics/simulation/agents.py:TranslationalMotion"]}
{"id": "C91", "title": "Command line options accept the values that the traits accept", "statement": "The option made by trait_to_option produces exactly the values that the trait accepts.", "quantifier": "for all traits and values", "why_tests_cant": "Values outside of the bounds and enumerations of classes are not tried.", "anchors": ["crowddynamics/traits.py:trait_to_option", "crowddynamics/traits.py:trait_to_type"]}
{"id": "C92", "title": "Invalid configurations are rejected", "statement": "load_config raises ValidationError if an entry does not match the specification, and returns the configuration otherwise.", "quantifier": "for all configurations", "why_tests_cant": "The shipped configuration is valid.", "anchors": ["crowddynamics/config.py:load_config"]}
{"id": "C93", "title": "Deprecated functions warn and still work", "statement": "Calling a function decorated with deprecated emits one warning and returns what the function returns.", "quantifier": "for all functions and arguments", "why_tests_cant": "No test calls a deprecated function.", "anchors": ["crowddynamics/exceptions.py:deprecated", "crowddynamics/config.py:import_simulation_callables"]}
{"id": "C94", "title": "Logic expressions build the tree they are written as", "statement": "Evaluating any expression of node constructors and the operator << in a new simulation raises nothing unless a constructor does, and yields one tree in which every constructed node occurs exactly once, the nodes of a right operand being further children of the root of the left operand, in order.", "quantifier": "for all expressions over all node constructors, nested to any depth", "why_tests_cant": "The repository builds only a handful of fixed trees; the statement covers every expression, including chains a << b << c, whose left association silently decides the order of updates.", "anchors": ["crowddynamics/simulation/base.py:47-73", "crowddynamics/examples/simulations.py:47-53", "crowddynamics/examples/simulations.py:123-136"]}
{"id": "C95", "title": "Shipped simulations update their nodes in a sensible order", "statement": "In every shipped simulation each update sets the aims of the agents before turning them into forces, adds all forces before integrating, and clears the forces after integrating.", "quantifier": "for all shipped simulations, all fields with a domain and all accepted parameters", "why_tests_cant": "Tests run the simulations and only check that nothing is raised; a wrong order gives plausible numbers.", "anchors": ["crowddynamics/examples/simulations.py:47-53", "crowddynamics/examples/collective_motion.py:65-73", "crowddynamics/examples/collective_motion.py:229-240", "crowddynamics/examples/validation.py:41-44"]}
{"id": "C96", "title": "Active agents are those inside the domain", "statement": "After a completed update of a shipped simulation with an InsideDomain node, an agent is marked active exactly if its position is inside the domain.", "quantifier": "for all crowds, fields, libraries, random numbers and all four shipped trees with InsideDomain", "why_tests_cant": "Only agents that cross the outline in the very last update are affected, which a test with fixed positions does not see.", "anchors": ["crowddynamics/simulation/logic.py:341-357", "crowddynamics/examples/simulations.py:125-136", "crowddynamics/examples/collective_motion.py:427-435"]}
{"id": "C97", "title": "The movement test moves agents towards their aim", "statement": "In the shipped simulation TestMovement an agent whose velocity is not the one it aims at changes its velocity.", "quantifier": "for all crowds without initial forces, all field and library behaviours, any number of updates", "why_tests_cant": "The test only runs updates; that all computed forces are thrown away needs an argument about every update.", "anchors": ["crowddynamics/examples/validation.py:17-63", "crowddynamics/simulation/logic.py:59-94"]}
{"id": "C98", "title": "Every shipped simulation can be updated", "statement": "No update of a shipped simulation raises an exception.", "quantifier": "for all shipped simulation classes, crowds, fields and parameters", "why_tests_cant": "The shipped tests do not instantiate all shipped classes, and an exception may depend on crowd and random numbers.", "anchors": ["crowddynamics/examples/collective_motion.py:347-384", "crowddynamics/simulation/multiagent.py:51-55", "crowddynamics/examples/validation.py:17-126"]}
{"id": "C99", "title": "Shipped fields with walls are closed", "statement": "For every shipped field with walls (hallway, rounding, avoid obstacle, closed room, room with one exit, four exits) and all parameters its traits accept, every point on the boundary of the domain lies on an obstacle or on a target, so that nobody can leave the domain except through an exit or a wall.", "quantifier": "all accepted parameters of all shipped fields, all boundary points of the domain", "why_tests_cant": "tests build each field once with fixed parameters and do not look at its geometry", "anchors": ["crowddynamics/examples/fields.py:41-279", "crowddynamics/simulation/field.py:108-117"]}
{"id": "C100", "title": "Parts of a shipped field lie in its domain", "statement": "Obstacles, targets and spawns of every shipped field are subsets of its domain, as the documentation of Field says, for all accepted parameters.", "quantifier": "all accepted parameters of all shipped fields, all points of their obstacles, targets and spawns", "why_tests_cant": "tests build each field once and a set inclusion for all parameters cannot be sampled", "anchors": ["crowddynamics/examples/fields.py:13-302", "crowddynamics/simulation/field.py:34-68"]}
{"id": "C101", "title": "No wall stands in an exit of a shipped field", "statement": "In every shipped field, for all accepted parameters, no interior point of a target segment belongs to an obstacle.", "quantifier": "all accepted parameters of all shipped fields, all points of the exits", "why_tests_cant": "tests build each field once with fixed parameters and do not look at its geometry", "anchors": ["crowddynamics/examples/fields.py:41-279"]}
{"id": "C102", "title": "The leaders of FourExitsFixedPlacing start away from walls", "statement": "For every accepted exit width the four spawns of the leaders lie in the domain, each at least five metres from every wall, and two of them are at least five metres apart, so that placing the leaders can never be refused because of a wall or of another leader.", "quantifier": "all exit widths between 0 and 10, all points of the spawns and of the walls", "why_tests_cant": "tests run the simulation a few times with random positions", "anchors": ["crowddynamics/examples/collective_motion.py:512-538", "crowddynamics/examples/fields.py:218-279"]}
{"id": "C103", "title": "Groups of the shipped simulations refer to existing spawns and targets", "statement": "In every shipped simulation with walls each group is placed in an existing spawn, targets and familiar exits of its members are no target or an index of a target of the field, nobody is leader and follower at the same time, and followers begin without a target.", "quantifier": "all accepted parameters, all random draws, all groups", "why_tests_cant": "tests run with a few random draws", "anchors": ["crowddynamics/examples/simulations.py:103-163,189-236,254-300", "crowddynamics/examples/collective_motion.py:126-180,211-268,294-344,406-461,483-550"]}
{"id": "C104", "title": "Shipped simulations place the requested number of agents", "statement": "The groups of a shipped simulation have together as many members as the parameters ask for.", "quantifier": "all accepted parameters of all shipped simulations with walls", "why_tests_cant": "tests do not count the agents of the shipped simulations", "anchors": ["crowddynamics/examples/simulations.py:84-86,146-163", "crowddynamics/examples/collective_motion.py:160-180,248-268,324-344,441-461,516-550"]}
{"id": "C105", "title": "In the hallway both groups head for their exits", "statement": "Everybody in the hallway who starts at a point of the spawn of the own group and goes straight in the initial direction reaches the target of the group.", "quantifier": "all accepted parameters, all starting points, both groups", "why_tests_cant": "tests run the simulation for a few steps only", "anchors": ["crowddynamics/examples/simulations.py:103-121,146-163", "crowddynamics/examples/fields.py:52-70"]}
{"id": "C106", "title": "In the hallway the groups start on opposite sides", "statement": "Every possible starting point of the group that goes to the right is to the left of every possible starting point of the other group.", "quantifier": "all accepted parameters, all pairs of starting points", "why_tests_cant": "tests use the default ratio only", "anchors": ["crowddynamics/examples/fields.py:62-66", "crowddynamics/examples/simulations.py:99-101"]}
{"id": "C107", "title": "Accepted parameters of a simulation are accepted by its field and logic", "statement": "If the traits of a shipped simulation accept its parameters then those of its field and of its logic nodes accept what the simulation passes to them, so that no TraitError is raised later.", "quantifier": "all accepted parameters of all shipped simulations with walls", "why_tests_cant": "tests use the default parameters only", "anchors": ["crowddynamics/examples/collective_motion.py:183-209,229-246", "crowddynamics/examples/fields.py:122-134", "crowddynamics/simulation/logic.py:239-241"]}
{"id": "C108", "title": "Changing parameters of a field changes its geometry", "statement": "After new parameters are assigned to a shipped field it has the geometry of a new field with these parameters.", "quantifier": "all fields, all old and new parameters", "why_tests_cant": "tests do not change parameters of fields", "anchors": ["crowddynamics/examples/fields.py:32-38,72-86,100-119"]}
{"id": "C109", "title": "The pillar stands in the domain", "statement": "The pillar of PillarInTheMiddle has a point inside of the domain.", "quantifier": "all positive widths, heights and radii", "why_tests_cant": "tests do not look at the geometry of the field", "anchors": ["crowddynamics/examples/fields.py:282-302"]}
{"id": "C110", "title": "Forces between circular agents are the sum over all others", "statement": "One call of agent_agent_block_list on circular agents adds to the force on every agent exactly the sum, over all other agents, of the social force (minus mass times the gradient of the anticipation energy, capped at 2000) and the contact force, for pairs whose bodies are less than 3 apart; nothing else of any agent changes.", "quantifier": "all crowds of circular agents, all cell sizes that reach the sight of every pair, all results of the cell list library that contain every pair of neighbouring cells once", "why_tests_cant": "A test compares a few configurations with stored values; the claim is about every pair of every crowd, including pairs in different cells and the exact cutoff.", "anchors": ["crowddynamics/core/interactions.py:53-72,150-158,191-205", "crowddynamics/core/motion/power_law.py:84-128,154-261", "crowddynamics/core/motion/contact.py:14-48"]}
{"id": "C111", "title": "The walls that act on agents are those of the field", "statement": "The node AgentObstacleInteractions adds to force and torque of every agent exactly the sum of the effects of the edges of the obstacles of the field (holes filled), raises nothing for supported geometries, and changes nothing else.", "quantifier": "all fields with supported obstacles, all crowds of both body models", "why_tests_cant": "Tests use one field; a node that drops or repeats obstacles of other shapes would pass.", "anchors": ["crowddynamics/simulation/logic.py:122-132", "crowddynamics/core/interactions.py:110-146,172-188,208-214", "crowddynamics/core/geometry.py:63-102"]}
{"id": "C112", "title": "An update is one step of the equation of motion", "statement": "If a logic tree runs nodes before an integrator and nodes after it, nothing else moves agents, and nobody is steered after the adjusting force, then one completed update moves every circular agent by one time step within the bounds of the integrator, under the sum of the forces that the nodes before the integrator ought to contribute in the state at the start of the update, and leaves no forces if Reset comes last.", "quantifier": "all trees of this form, all crowds of circular agents, all fields with supported obstacles, all random numbers", "why_tests_cant": "Needs the composition of all nodes for all crowds; tests run single nodes or look at pictures.", "anchors": ["crowddynamics/simulation/logic.py:59-387", "crowddynamics/core/integrator.py:32-69,167-176,209-240", "crowddynamics/simulation/multiagent.py:16-55"]}
{"id": "C113", "title": "Shipped simulations integrate the equation of motion", "statement": "One completed update of every shipped simulation other than TestMovement moves every circular agent of radius at most 0.3 by a time step of 0.01 under the sum of a bounded random force, the adjusting force towards the direction chosen in this update, the forces of all other agents and (where the node is present) the walls of the field; all forces are zero afterwards.", "quantifier": "all shipped logic trees but TestMovement, all crowds, all fields with a domain and supported obstacles, all random numbers", "why_tests_cant": "The examples are only run for some steps to see that nothing is raised; the claim is about all states.", "anchors": ["crowddynamics/examples/simulations.py:47-66,123-150,201-228,270-300", "crowddynamics/examples/collective_motion.py:65-90,144-170,229-260,309-335,425-455,500-530", "crowddynamics/examples/validation.py:91-110", "crowddynamics/simulation/logic.py:59-387"]}
{"id": "C114", "title": "Navigation goes to the selected target", "statement": "navigation_to_target(k) is the static potential for target number k of the field (counted from the end for negative k), the domain and the obstacles; with closest it is that for the union of all targets; no targets, an index out of range, another kind of index are refused with CrowdDynamicsException, IndexError and InvalidType.", "quantifier": "all fields, all indices, steps, radii and strengths, whatever was asked before", "why_tests_cant": "Tests use one field with one target, where every way to pick a target gives the same result.", "anchors": ["crowddynamics/simulation/field.py:138-164"]}
{"id": "C115", "title": "Wrong input is refused with the documented exception", "statement": "Geometries that are not points, line strings, polygons or collections of these raise TypeError in all conversions; geom_to_array raises ValueError for collections; stored arrays of different sizes raise ValueError; saving a non-empty dictionary as geometry raises AttributeError and writes nothing.", "quantifier": "all geometries, grids, files and dictionaries", "why_tests_cant": "A test gives one wrong input; the claim is that no wrong input passes, however deep it is nested.", "anchors": ["crowddynamics/core/geometry.py:24-135", "crowddynamics/io.py:65-101,147-180"]}
{"id": "C116", "title": "What the navigation map says", "statement": "If static_potential returns, the fast marching solver was asked for the distance to exactly the cells of the target with exactly the cells of the widened obstacles masked, and at every inner cell the map is the unit vector of fastest approach to the target away from the obstacles, and the mixture with the direction away from the obstacles near them.", "quantifier": "all domains, targets and obstacles without holes, all steps, radii and strengths, all solvers", "why_tests_cant": "Tests look at shapes and finiteness of the result or plot it.", "anchors": ["crowddynamics/core/steering/quickest_path.py:27-197", "crowddynamics/core/steering/navigation.py:12-60", "crowddynamics/core/geometry.py:105-135"]}
{"id": "C117", "title": "Attributes of bodies stay in range and the body type is set once", "statement": "However an agent is created and whatever is assigned later, no attribute of its body is ever negative and no ratio is larger than 1; values out of range are refused and change nothing; the body type can be set once, another one later raises.", "quantifier": "all configurations, random numbers, keyword arguments and sequences of assignments", "why_tests_cant": "Tests create some agents; the claim is about all sequences of assignments, also failing ones.", "anchors": ["crowddynamics/simulation/agents.py:47-147"]}
{"id": "C118", "title": "Free positions are accepted, overlapping ones rejected", "statement": "The overlap tests used when agents are placed are exact; if the positions drawn leave every member clear of agents and walls all of them are placed there, in order, and no draw is rejected; a position at which the member overlaps a near agent or a wall is rejected and nothing is stored.", "quantifier": "all kinds of agents, walls, groups, generators and states of the agent array", "why_tests_cant": "Tests place random crowds and cannot show that a free position is never refused.", "anchors": ["crowddynamics/simulation/agents.py:495-562", "crowddynamics/simulation/agents.py:633-680", "crowddynamics/core/geom2D.py:38-59"]}
{"id": "C119", "title": "The navigation node uses the map of the agents own target at the agents own cell", "statement": "Navigation.update gives every agent inside of the domain the direction that the map of its target has at the cell in which it is (row from y, column from x); other agents and all other attributes are unchanged; if the map of some target cannot be computed the exception of the first such target is raised after changing nothing but directions.", "quantifier": "all crowds, fields, targets, solvers that keep the shape, cache contents and grid steps", "why_tests_cant": "Tests run it for one field and only look whether it raises.", "anchors": ["crowddynamics/simulation/logic.py:149-165", "crowddynamics/simulation/field.py:155-164", "crowddynamics/core/steering/navigation.py:59-78"]}
{"id": "C120", "title": "Nobody starts in a wall", "statement": "In every shipped simulation that has walls, for every choice of its parameters that it accepts, no agent of a group is ever placed so that its circle overlaps a wall, whatever positions the generator draws.", "quantifier": "all shipped simulations with walls, all accepted parameters, all groups, all radii of the shipped body types, all positions that the spawn generator can draw", "why_tests_cant": "Positions are drawn at random from a convex hull; the bad region of the hull is a small set near one corner, so runs of a test miss it.", "anchors": ["crowddynamics/simulation/field.py: Field.sample_spawn, Field._samples", "crowddynamics/simulation/agents.py: Agents.add_non_overlapping_group", "crowddynamics/examples/simulations.py: RoomWithOneExit, Hallway", "crowddynamics/examples/collective_motion.py: ClosedRoom"]}
{"id": "C121", "title": "What a stored simulation contains", "statement": "After a simulation with a SaveSimulationData node was run in a fresh directory, for any number of updates and any pattern of saves: metadata.csv holds the metadata; geometry.json can be loaded and gives back the domain, obstacles, targets and spawns of the field; data.csv holds a header and the data of every update up to the last save; the agents files hold the agents after each of these updates. When an exception ends the run, everything up to the save before is kept. Two simulations with different names or timestamps use different default directories.", "quantifier": "all directories without braces, metadata, fields, numbers of updates, states of agents and data, patterns of saves, failing file accesses and crash points", "why_tests_cant": "a test runs a few updates with one frequency of saving, usually on arrays that nobody changes in between; the claim is about every history and every crash point", "anchors": ["crowddynamics/simulation/logic.py:SaveSimulationData", "crowddynamics/io.py:save_npy", "crowddynamics/io.py:save_csv", "crowddynamics/io.py:save_geometry_json", "crowddynamics/simulation/base.py:SimulationBase.name_with_timestamp"]}
{"id": "C122", "title": "Forces and torques between three-circle agents are the sum over all others", "statement": "One call of agent_agent_block_list on three-circle agents adds to force and torque of every agent exactly the sum, over all other agents, of the social force (for the earliest contact of two of their circles), the contact force at the pair of circles closest to each other, and the moment of their sum about the agent, acting at the point of contact, for pairs less than 3 apart; nothing else of any agent changes.", "quantifier": "all crowds of three-circle agents with attached shoulders, all cell sizes that reach the sight of every pair, all results of the cell list library that contain every pair of neighbouring cells once", "why_tests_cant": "A test compares a few configurations with stored values; the claim is about every pair of every crowd and the sign of every moment.", "anchors": ["crowddynamics/core/interactions.py:75-109,150-158,191-205", "crowddynamics/core/motion/power_law.py:154-261", "crowddynamics/core/motion/contact.py:14-48", "crowddynamics/core/distance.py:24-65"]}
{"id": "C123", "title": "An update is one step of the equations of motion of three-circle agents", "statement": "If a logic tree runs nodes before an integrator and nodes after it, nothing else moves agents, and nobody is steered after the adjusting force, then one completed update moves and turns every three-circle agent by one time step within the bounds of the integrator, under the sum of the forces and torques that the nodes before the integrator ought to contribute in the state at the start of the update, and leaves no forces and torques if Reset comes last. In particular every shipped simulation other than TestMovement does so.", "quantifier": "all trees of this form and all shipped trees but TestMovement, all crowds of three-circle agents with attached shoulders, all fields with supported obstacles, all random numbers", "why_tests_cant": "Needs the composition of all nodes for all crowds; tests run single nodes or look at pictures.", "anchors": ["crowddynamics/simulation/logic.py:59-387", "crowddynamics/core/integrator.py:32-69,72-131,167-176,209-240", "crowddynamics/core/interactions.py:75-109", "crowddynamics/simulation/multiagent.py:16-55"]}
{"id": "C124", "title": "Plot ranges contain the data and have the aspect ratio asked for", "statement": "set_aspect sets ranges whose lengths have the ratio aspect times width over height of the figure, that are centred on the data, and that leave a margin on every side which is the given fraction of the total plot range.", "quantifier": "all nonempty lists of coordinates, all figure sizes, all aspects > 0, all margins in [0, 1/2)", "why_tests_cant": "Needs all data sets and all aspect ratios, including the choice of the dimension that limits the plot.", "anchors": ["crowddynamics/visualizations.py:17-51"]}
{"id": "C125", "title": "Drawings of geometries show exactly their points", "statement": "add_geom draws all parts of a geometry, and what is drawn is exactly the set of points of the geometry; anything else raises TypeError.", "quantifier": "all geometries of any depth, all points of the plane", "why_tests_cant": "A picture can only be looked at; nested collections and holes are easily missed.", "anchors": ["crowddynamics/visualizations.py:87-105"]}
{"id": "C126", "title": "Every field can be drawn", "statement": "add_field and plot_field draw every field: all points of domain, spawns, targets and obstacles are visible, and plot_field chooses ranges that contain the domain, with equal units on both axes.", "quantifier": "all fields, also those without domain or obstacles (the default); all libraries", "why_tests_cant": "The functions are not covered by tests, as they open a browser.", "anchors": ["crowddynamics/visualizations.py:108-126,172-226", "crowddynamics/simulation/field.py:72-85"]}
{"id": "C127", "title": "Maps are drawn where they belong", "statement": "add_distance_map shows every value of a map at its grid point; add_direction_map draws one arrow per sampled grid point, from the grid point along the direction, with its head at the tip and pointing the same way.", "quantifier": "all grids, all maps, all sampling frequencies", "why_tests_cant": "Positions in a picture are not tested; a shift is invisible for domains with a corner in the origin.", "anchors": ["crowddynamics/visualizations.py:129-169", "crowddynamics/core/steering/quickest_path.py:22-49"]}
{"id": "C128", "title": "Names and formats of the files of drawings", "statement": "figure writes to a file with the extension html (appended if it is missing) and shows or saves it only if asked to and if the block completes; render_tree chooses the format by the extension and refuses others.", "quantifier": "all paths, all outcomes of the block", "why_tests_cant": "Tests try a few names; names with dots in directories or at the beginning are special.", "anchors": ["crowddynamics/visualizations.py:54-84,230-246"]}
{"id": "C129", "title": "Domain and obstacles of a field are never invalid or empty", "statement": "Whatever is assigned to domain and obstacles of a field, they are always None or valid and not empty; a value that is refused raises and leaves the field unchanged.", "quantifier": "all sequences of assignments of any values, all notions of validity", "why_tests_cant": "An invariant over all sequences of assignments, including failing ones.", "anchors": ["crowddynamics/simulation/field.py:72-106"]}
{"id": "C130", "title": "Speeds stay bounded forever", "statement": "In every run of a shipped simulation (other than TestMovement) with circular agents, of any length: if everything that acts on an agent besides its adjusting force never exceeds F, its speed never exceeds target_velocity + tau_adj * F / mass, provided it does not start faster. An agent who stays out of reach of others and of walls never exceeds target_velocity + 3 * tau_adj * std_rand_force.", "quantifier": "all shipped logic trees but TestMovement, all crowds of circular agents with radii of at most 0.3 that start without forces, relaxation times of at least 1/30, target directions of length at most 1, all fields, all random numbers, all numbers of updates", "why_tests_cant": "A bound for runs of every length; an instability of the integrator would show only for some parameters and after many steps.", "anchors": ["crowddynamics/core/integrator.py:velocity_verlet_integrator", "crowddynamics/core/motion/adjusting.py:force_adjust", "crowddynamics/core/motion/fluctuation.py:force_fluctuation", "crowddynamics/simulation/logic.py:Integrator"]}
{"id": "C131", "title": "Undisturbed agents reach the velocity they want", "statement": "In every run of a shipped simulation (other than TestMovement) an agent without random force that is out of reach of others and walls and keeps its direction approaches its desired velocity: the difference keeps its direction (no overshooting) and shrinks at least by the factor 1 - dt / (2 tau_adj) per update.", "quantifier": "all shipped logic trees but TestMovement, all crowds of circular agents with radii of at most 0.3 that start without forces, all relaxation times of at least 1/30, all numbers of updates", "why_tests_cant": "Statement about runs of all lengths and all parameters.", "anchors": ["crowddynamics/core/integrator.py:velocity_verlet_integrator", "crowddynamics/core/motion/adjusting.py:force_adjust", "crowddynamics/simulation/logic.py:Adjusting"]}
{"id": "C132", "title": "Nobody jumps over a wall", "statement": "In no update of a shipped simulation does an agent that does not touch a wall pass it.", "quantifier": "all shipped logic trees but TestMovement, all crowds of circular agents with radii of at most 0.3 that start without forces, relaxation times of at least 1/30, all fields and walls", "why_tests_cant": "Passing through a wall happens only for rare combinations of speeds and distances.", "anchors": ["crowddynamics/core/integrator.py:adaptive_timestep", "crowddynamics/core/integrator.py:velocity_verlet_integrator", "crowddynamics/simulation/logic.py:Integrator"]}
{"id": "C133", "title": "Neither coordinates nor numbering of agents matter", "statement": "If agents, walls and random directions of a simulation with circular agents are turned, reflected or moved together and the agents are renumbered, every update (of the nodes Reset, Integrator, Fluctuation, Adjusting, Orientation, AgentAgentInteractions, AgentObstacleInteractions) and every run of any length ends in the same way, takes the same time steps and leads to the turned, moved and renumbered agents. In particular a symmetric scene stays symmetric for ever.", "quantifier": "for all numbers of agents, all circular agents, all rigid motions of the plane, all permutations of the agents, all walls, all logic trees built from these nodes, all numbers of updates", "why_tests_cant": "A test can compare some scenes with some rotated copies, up to rounding; it cannot show it for all scenes, motions, numberings and run lengths.", "anchors": ["crowddynamics/core/interactions.py:191-214", "crowddynamics/core/distance.py:16-47", "crowddynamics/core/distance.py:108-146", "crowddynamics/core/motion/contact.py:14-48", "crowddynamics/core/motion/power_law.py:215-259", "crowddynamics/core/integrator.py:32-97", "crowddynamics/core/integrator.py:167-176", "crowddynamics/simulation/logic.py:59-130", "crowddynamics/simulation/multiagent.py:51-55"]}
{"id": "C134", "title": "Version of a working copy", "statement": "In a working copy of a git repository get_versions() returns the documented version TAG[+DISTANCE.gHEX[.dirty]] (0+untagged.DISTANCE.gHEX[.dirty] without tags, a dot instead of + after a tag that contains +), the full hash of the last commit, whether there are uncommitted changes, no error, and the date of the commit in the form of ISO 8601. In particular the parser of the output of git describe recovers tag, distance and hash, also for tags that contain hyphens.", "quantifier": "all well-formed states of a working copy (any tag, number of commits, hash, changes, date), all places of the source tree, POSIX and Windows names of git", "why_tests_cant": "Tests run in one working copy and see one tag format; tags with hyphens, digits or the letter g, and repositories without tags do not occur.", "anchors": ["crowddynamics/_version.py:216-305", "crowddynamics/_version.py:315-337", "crowddynamics/_version.py:445-520"]}
{"id": "C135", "title": "The version identifies the state of the source", "statement": "Working copies that report the same version have the same closest tag, the same distance, changes in both or none, and the same abbreviated hash unless they are exactly at the tag.", "quantifier": "all pairs of states of working copies", "why_tests_cant": "A test compares a few versions; that no two different states share a version is a statement about all pairs.", "anchors": ["crowddynamics/_version.py:308-337", "crowddynamics/_version.py:216-305"]}
{"id": "C136", "title": "Versions are valid according to PEP 440", "statement": "The reported version is a canonical version in the sense of PEP 440 if the tags are, also for source trees without git.", "quantifier": "all states of working copies with canonical tags; all source trees without git", "why_tests_cant": "There are infinitely many tags and names of directories.", "anchors": ["crowddynamics/_version.py:107-129", "crowddynamics/_version.py:315-337", "crowddynamics/_version.py:477-520"]}
{"id": "C137", "title": "Version of an archive", "statement": "In an archive made by git (keywords expanded) the reported version is a tag of the commit (the first one in the order of strings), or 0+unknown with an error message if the commit has no tags.", "quantifier": "all lists of names of a commit, all hashes and dates", "why_tests_cant": "Tests never run from an archive; the order of tags and branches in the keyword is arbitrary.", "anchors": ["crowddynamics/_version.py:20-30", "crowddynamics/_version.py:161-213", "crowddynamics/_version.py:488-492"]}
{"id": "C138", "title": "Asking for the version never raises", "statement": "get_versions() returns default information if it is unable to compute the version; it never raises an exception, whatever the installed programs do.", "quantifier": "all behaviours of the programs on the machine", "why_tests_cant": "Failing or odd programs are not available in a test environment.", "anchors": ["crowddynamics/_version.py:70-104", "crowddynamics/_version.py:216-305", "crowddynamics/_version.py:477-520"]}
{"id": "C139", "title": "The styles of git describe", "statement": "The style git-describe-long reports exactly what git describe --tags --dirty --always --long prints and the style git-describe what it prints without --long.", "quantifier": "all states of working copies", "why_tests_cant": "The shipped configuration uses another style, so tests never reach these renderers.", "anchors": ["crowddynamics/_version.py:405-442", "crowddynamics/_version.py:445-474"]}
{"id": "C140", "title": "The movement test walks one centimetre per update", "statement": "TestMovement starts with exactly one agent, of either agent type, at the origin: active, radius 0.255 m, mass 73.5 kg, walking and wanting to walk at 1 m/s along the first axis, with shoulders in place for three-circle agents and no force acting. After k updates it is at (k/100, 0) with the same velocity, orientation and body, shoulders attached and no force or torque left over.", "quantifier": "all agent types, all numbers of updates k, all random sequences", "why_tests_cant": "A test can run the simulation for some number of steps; the claim is an exact position for every number of steps and both agent types.", "anchors": ["crowddynamics/examples/validation.py:17-63", "crowddynamics/simulation/agents.py:633-680", "crowddynamics/simulation/logic.py:59-75"]}
{"id": "C141", "title": "The interaction test starts a head-on encounter that stays symmetric", "statement": "TestAgentInteraction starts with exactly two agents, of either agent type, at (0, 0) and (5, 0), that do not overlap and walk towards each other at 1 m/s, so that they would meet after 2.5 s. For circular agents, if the random forces push both agents along the line with equal strength and in opposite directions, then after any number of updates both agents are on the line, at equal distances from the point halfway between them, with opposite velocities.", "quantifier": "all agent types for the start; all numbers of updates, all symmetric random forces and all correct cell lists for the run with circular agents", "why_tests_cant": "Symmetry after every number of steps, whatever the strengths of the random forces, is a statement about infinitely many runs.", "anchors": ["crowddynamics/examples/validation.py:66-126", "crowddynamics/simulation/logic.py:78-118", "crowddynamics/core/interactions.py:51-70"]}
{"id": "C142", "title": "Messages of the package reach the log files for which they are configured", "statement": "With the shipped logging configuration, messages of any logger of the package are written to debug.log from level DEBUG on and to info.log from level INFO on.", "quantifier": "all logger names, all levels", "why_tests_cant": "There are infinitely many logger names and levels; the claim follows from the search for the effective level through all parents.", "anchors": ["crowddynamics/conf/logging.yaml:20-54", "crowddynamics/logging.py:46-56"]}
{"id": "C143", "title": "The log level asked for on the command line is used", "statement": "If run --loglevel L accepts the level L, then afterwards messages of the package are written exactly if their level is at least L.", "quantifier": "all levels that can be given, all logger names, all levels of messages", "why_tests_cant": "A test would look at single messages; the claim is about all levels and all loggers.", "anchors": ["crowddynamics/cli.py:60-70", "crowddynamics/logging.py:53-56"]}
{"id": "C144", "title": "The option for the log level accepts every listed level, refuses others politely and can be documented", "statement": "The option --loglevel accepts every name and every number in LOGLEVELS, refuses every other text with a usage error, and the help of the command can be shown.", "quantifier": "all texts on the command line", "why_tests_cant": "The set of texts that must be refused with a usage error is infinite.", "anchors": ["crowddynamics/cli.py:60-70", "crowddynamics/logging.py:9-13"]}
{"id": "C145", "title": "The installed program can run the simulations that the module can run", "statement": "Every simulation that python -m crowddynamics.cli run NAME runs is also run by the installed script crowddynamics run NAME.", "quantifier": "all sets of simulation classes in the directory, all names", "why_tests_cant": "The tests call the functions of the module, not the installed script, and only for one directory.", "anchors": ["setup.py:23-27", "crowddynamics/cli.py:34-38", "crowddynamics/cli.py:73-92"]}
{"id": "C146", "title": "The outdoor simulations start as described", "statement": "Both Outdoor simulations store one row per agent asked for. The agents that were placed are active adults that walk at 1 m/s in the direction drawn for them, stand inside the field and (circular agents) do not overlap. With leaders, the leader always gets the first row, stands at the fixed fraction of the field and looks along the first axis, and everybody else is a follower. Rows of agents that could not be placed are inactive.", "quantifier": "all sizes, kinds of agents, widths, heights, ratios, random bodies, random directions and positions drawn from the spawn", "why_tests_cant": "The agents are random; tests look at a few draws, and agents that cannot be placed occur only in crowded fields.", "anchors": ["crowddynamics/examples/simulations.py:36-45", "crowddynamics/examples/simulations.py:55-71", "crowddynamics/examples/collective_motion.py:47-64", "crowddynamics/examples/collective_motion.py:75-101", "crowddynamics/simulation/agents.py:633-680"]}
{"id": "C147", "title": "Driven agents get ahead and leave the field", "statement": "In every run of a shipped simulation (other than TestMovement) with circular agents, if what drives an agent (desired velocity plus relaxation time over mass times everything else that acts on it) always has a component of at least c along a unit vector u, then after k updates the agent has advanced along u by at least 0.01 k c - 2 V tau_adj, where V is its speed limit. In particular an agent out of reach of others and walls advances at least at the rate v0 c0 - 3 tau_adj std, and in the simulations with InsideDomain it is marked as not active once this exceeds the extent of the domain along u.", "quantifier": "all fields, numbers of updates, random numbers and directions u, all crowds of circular agents with radii of at most 0.3 that start without forces; agents with a relaxation time of at least 1/30 and target directions of length at most 1", "why_tests_cant": "it is a bound for runs of every length and every crowd; a test runs a few hundred updates of one crowd and can not tell slow progress from none", "anchors": ["crowddynamics/core/integrator.py:164-256", "crowddynamics/simulation/logic.py:67-75", "crowddynamics/simulation/logic.py:341-357", "crowddynamics/core/motion/adjusting.py:16-51"]}
{"id": "C148", "title": "When runs end", "statement": "A run with the exit condition time_tot >= T of a simulation whose updates raise no exception and whose nodes contain one integrator with 0 < dt_min <= dt_max ends normally after m updates with (T - t) / dt_max <= m < (T - t) / dt_min + 1, less than dt_max after T. For the shipped simulations m is exactly the ceiling of (T - t) / 0.01. The exit condition iterations == K of the tests ends a run exactly when the counter reaches K if it is at most K at the start; otherwise the run never ends.", "quantifier": "all simulations with one integrator, all shipped simulations, all limits", "why_tests_cant": "termination and non-termination can not be observed by running for a finite time", "anchors": ["crowddynamics/simulation/base.py:123-126", "crowddynamics/simulation/logic.py:67-75", "crowddynamics/simulation/multiagent.py:51-55", "crowddynamics/examples/tests/test_simulations.py:18"]}
{"id": "C149", "title": "Forces between agents are determined and change no total momentum", "statement": "The force of one circular agent on another, as specified (gradient of the anticipation energy cut back to 2000 N, plus contact force, within sight), is uniquely determined, and opposite to the force in the other direction if both agents have the same physical parameters. So in every run of a shipped simulation (other than TestMovement) with such agents, every update changes the total momentum by exactly 0.01 / 2 times the sum of the outside forces (random, adjusting, walls) of this and the last update.", "quantifier": "all pairs of circular agents, all runs of any length of crowds with radii of at most 0.3 that start without forces", "why_tests_cant": "it is an exact balance over all configurations; a test would see one configuration, up to rounding", "anchors": ["crowddynamics/core/interactions.py:53-72", "crowddynamics/core/motion/power_law.py:213-260", "crowddynamics/core/motion/contact.py:12-47", "crowddynamics/core/integrator.py:164-256"]}
{"id": "C150", "title": "The other styles report the documented versions", "statement": "For each style the docstring of its function says what is reported: pep440-pre gives the tag and .post.devDISTANCE if there are commits since; pep440-old gives the tag and .postDISTANCE, with .dev0 if there are changes; pep440-post gives the same and the hash; without tags the tag is 0. The style default and the empty style mean pep440; any other style raises ValueError.", "quantifier": "for all working copies, all tags, distances and hashes, with and without changes, and all names of styles", "why_tests_cant": "The version module is not tested, and only one style is configured; a test runs in one working copy.", "anchors": ["crowddynamics/_version.py:340-402", "crowddynamics/_version.py:445-474"]}
{"id": "C151", "title": "Agents out of sight have no influence", "statement": "Others matter only within sight. If nobody else comes nearer to a group of agents than the sight distance of 3 metres (gap between the bodies), the group moves in the same way in every crowd: whatever the number, the numbering, the bodies and the plans of the others, every attribute of every member is the same after every update. If nobody moves more than c per update, those who start with a gap of more than 3 + 2 c N cannot influence the group during the first N updates.", "quantifier": "all runs, of any length, of Outdoor, Hallway, RoomWithOneExit, FourExitsRandomPlacing and TestAgentInteraction with circular agents of radius at most 0.3 that start without forces; all groups, all sets of other agents in either crowd, the same random numbers for the group", "why_tests_cant": "Tests run one crowd; that a member of a group is not influenced by any distant crowd, through cell lists, sums over neighbours or the numbering, is a statement about all pairs of crowds.", "anchors": ["crowddynamics/core/interactions.py:45-72", "crowddynamics/core/interactions.py:150-205", "crowddynamics/simulation/logic.py:59-165", "crowddynamics/examples/simulations.py:18-300"]}
{"id": "C152", "title": "The table of traits shows every trait", "statement": "The documentation of an agent class contains a csv table of its traits. Read as ReStructuredText and as comma separated values, it gives the four headings and then exactly one row for each trait of the class and its bases, in order, with the name, the symbol, the default value and the help text unchanged, whatever commas and quotes they contain; there is no other way to read it.", "quantifier": "all classes, all traits with any metadata; shown for traits whose texts stay on one line and whose defaults are not tuples, in particular for Circular, ThreeCircle and Capsule; refuted for tuples", "why_tests_cant": "Tests do not look at the generated documentation; quoting errors only show for texts with commas or quotes, and a tuple default raises only when such a class is decorated.", "anchors": ["crowddynamics/traits.py:222-277", "crowddynamics/simulation/agents.py:347-444"]}
{"id": "C153", "title": "Docstrings are completed and otherwise kept", "statement": "The class decorator interpolate_docstring replaces each key in the docstring by its value, computed from the class if it is a function, and keeps the rest of the docstring; doubled percent signs become one, percent signs in values play no role, unknown keys raise KeyError. A lone percent sign in the docstring or a missing docstring makes the decorator raise.", "quantifier": "all docstrings, all mappings from keys to strings or functions of the class, all classes", "why_tests_cant": "Tests do not decorate classes; which docstrings break the decorator is a question about all texts.", "anchors": ["crowddynamics/utils.py:29-52", "crowddynamics/simulation/agents.py:347-363"]}
{"id": "C154", "title": "Keywords of an archive are read back from the version file", "statement": "git_get_keywords returns for every keyword the text that stands between the quotes of the line of this keyword: the search finds the leftmost place with an equals sign, white space and a quoted value and takes the longest value there. So a file in which git archive has replaced the keywords by any values without line feed (also with quotes or equals signs) is read as these values if no other line begins with the name of a keyword; the file of the repository is read as what get_keywords returns there; a file that cannot be opened gives no keywords and no version.", "quantifier": "All lines; all files made of lines that define no keyword around the three lines of the keywords; all values without line feed.", "why_tests_cant": "Tests would try a few version files; that the regular expression takes the right quotes for every value is a statement about all texts.", "anchors": ["crowddynamics/_version.py:132-158", "crowddynamics/_version.py:20-30", "crowddynamics/_version.py:161-166"]}
{"id": "C155", "title": "Points sampled in a polygon are uniformly distributed", "statement": "The point that polygon_sample yields lies in any measurable set with probability equal to the share of the area of the convex hull of the vertices that this set covers, provided that the triangulation of scipy tiles the hull (the triangles cover exactly the hull, two of them overlap at most in a set without area) and the hull has a positive area. The same holds for random_sample_triangle in every triangle with positive area.", "quantifier": "All polygons, all triangulations that tile the hull, all measurable sets; probability with respect to independent uniformly distributed numbers in [0, 1).", "why_tests_cant": "A test can only compare samples with a histogram and a tolerance; equality of distributions on all measurable sets is not observable.", "anchors": ["crowddynamics/core/sampling.py:115-156", "crowddynamics/core/sampling.py:79-112", "crowddynamics/core/sampling.py:58-76"]}
{"id": "C156", "title": "Fluctuations have no preferred direction", "statement": "The fluctuation force of an agent depends on the number drawn for its direction only through its direction: the length is mass times std_rand_force times the drawn size, the distribution of the force is not altered by any rotation, and its mean is zero. The same holds for every row of random_vector with default angles. The fluctuation torque is zero on average if the drawn size is distributed symmetrically.", "quantifier": "All agents, sizes, rotations and measurable sets of forces; probability with respect to a uniformly distributed number in [0, 1).", "why_tests_cant": "Tests check the size of a few draws; invariance of the distribution under all rotations needs an argument about integrals.", "anchors": ["crowddynamics/core/motion/fluctuation.py:14-42", "crowddynamics/core/motion/fluctuation.py:45-62", "crowddynamics/core/rand.py:35-37", "crowddynamics/simulation/logic.py:78-86"]}
{"id": "C157", "title": "The clocks of the players are Poisson processes", "statement": "If the standard exponential numbers of the generator are independent and exponentially distributed, then poisson_clock(interval, dt) ends with probability one and the number of times it yields is Poisson distributed with mean dt / interval; poisson_timings ends with probability one, and the numbers of times that different players are yielded in one call are independent and Poisson distributed with mean dt / interval.", "quantifier": "All intervals, horizons, positions in the random stream, sets of players, shuffles and orders of the times; all probability spaces.", "why_tests_cant": "The documentation claims the distribution; tests can only look at samples of it, and termination with probability one is not observable.", "anchors": ["crowddynamics/core/rand.py:41-96", "crowddynamics/core/rand.py:99-127"]}
{"id": "C158", "title": "Fine time steps give the true motion", "statement": "For every law of motion with Lipschitz continuous accelerations of any number of agents, and every solution of the equation of motion up to a time T, both integrators, called over and over with the forces of the law, stay within a constant times dt_max of the solution, in all positions and velocities at all times up to T, if they start on it. The constant does not depend on the step sizes, which adaptive_timestep selects, and velocity_verlet_integrator may start with any bounded force_prev.", "quantifier": "all numbers of agents, Lipschitz laws, solutions, step bounds with 0 <= dt_min <= dt_max <= 1, runs and times up to T", "why_tests_cant": "Tests compare at most single steps for sample states; a limit for all laws of motion and step sequences needs an error analysis.", "anchors": ["crowddynamics/core/integrator.py:32-97", "crowddynamics/core/integrator.py:103-109", "crowddynamics/core/integrator.py:167-176", "crowddynamics/core/integrator.py:209-256"]}
{"id": "C159", "title": "The velocity Verlet integrator is of second order", "statement": "With a fixed time step h the error of velocity_verlet_integrator is at most a constant times the square of h for every Lipschitz law of motion, as for the velocity Verlet method that its documentation describes.", "quantifier": "all numbers of agents, Lipschitz laws, solutions, step sizes h in (0, 1], runs that start with force_prev equal to the force, and times up to T", "why_tests_cant": "The order of an integrator is an asymptotic claim about all step sizes.", "anchors": ["crowddynamics/core/integrator.py:167-176", "crowddynamics/core/integrator.py:209-256"]}
{"id": "C160", "title": "The social force slows the approach", "statement": "The social force anticipates collisions and acts against them. If the discs of two circular agents will touch within 30 seconds and then overlap, the social forces on both have a strictly negative component along their motion relative to the other, so they slow the approach; without such a collision both forces are zero, so that the force on either agent is not zero exactly if a collision is ahead. For three-circle agents every social force that is not zero slows the approach in the same sense.", "quantifier": "for all pairs of agents with positive mass, k_soc and tau_0, all positions, velocities, orientations and radii", "why_tests_cant": "A test tries a few encounters, mostly head-on; the wrong direction of the three-circle force only shows for a shoulder that is behind, and then for near misses.", "anchors": ["crowddynamics/core/motion/power_law.py:107-149", "crowddynamics/core/motion/power_law.py:215-363"]}
{"id": "C161", "title": "The tests of the social force test it", "statement": "The assertions of the two tests of the social forces hold for both types of agents, whatever bodies are drawn: two adults who walk alike, two metres apart, do not feel a social force, and two adults who walk towards each other do.", "quantifier": "for both types of agents and all random numbers of the bodies", "why_tests_cant": "These are tests; they are skipped or run with a few random bodies. Nobody tests whether the agents of a test have the attributes that are written in it.", "anchors": ["crowddynamics/core/motion/tests/test_power_law_benchmark.py:10-63", "crowddynamics/core/motion/power_law.py:215-363", "crowddynamics/simulation/agents.py:309-319"]}
{"id": "C162", "title": "Angles are wrapped correctly in floating point", "statement": "With the rounding of float64 after each operation, wrap_to_pi returns a float64 in [-np.pi, np.pi], strictly between -pi and pi; it differs from the angle by whole turns up to an error of (1 + |x|) 2^-50; wrapping twice is wrapping once; np.pi and -np.pi map to themselves.", "quantifier": "all angles that are float64 numbers (no overflow)", "why_tests_cant": "Tests of the function with sampled floats and a tolerance cannot bound the error for all angles, nor show that the result never leaves the interval by a rounding error.", "anchors": ["crowddynamics/core/vector2D.py:8-36"]}
{"id": "C163", "title": "Angles in range are not changed in floating point", "statement": "wrap_to_pi returns angles in [-np.pi, np.pi] as they are.", "quantifier": "all float64 angles in [-np.pi, np.pi]", "why_tests_cant": "The loss of digits affects negative angles only, and is below the tolerances of the tests.", "anchors": ["crowddynamics/core/vector2D.py:8-36"]}
{"id": "C164", "title": "The cell list is not affected by rounding errors", "statement": "With the rounding of float64, two points get the same key in the block list exactly if they are in the same cell of the exact grid, and a search looks up exactly the keys of the cells whose index differs by at most the given radius, so that no point within the radius times the cell size is missed; the floor division of floats is the exact one.", "quantifier": "all dimensions, points, positive cell sizes and search radii whose quotients are below 2^49", "why_tests_cant": "Errors of floor division occur at borders of cells, which random points do not hit; all borders are covered by the proof.", "anchors": ["crowddynamics/core/block_list.py:93-146"]}
{"id": "C165", "title": "Doors of whole multiples of the width of an agent", "statement": "A door whose width is k times the width w of an agent has capacity k, for widths that are written as decimal numbers.", "quantifier": "all real widths w in [0.1, 10] and all k from 1 to 100; the written numbers are rounded to float64", "why_tests_cant": "For most decimal widths the answer is right; a test would have to try 0.6 and 0.2.", "anchors": ["crowddynamics/core/evacuation.py:17-85"]}
{"id": "C166", "title": "The third law holds exactly in floating point", "statement": "In any arithmetic whose rounding is monotone, symmetric and idempotent, and with any hypot that is symmetric and any exp, the social and contact forces that two circular agents with the same mass, k_soc, tau_0, mu, kappa and damping exert on each other are exact opposites, and for any two agents the forces do not depend on the order of the pair in the last digit.", "quantifier": "all pairs of circular agents and all such arithmetics, in particular float64", "why_tests_cant": "Tests compare forces with a tolerance for a few pairs.", "anchors": ["crowddynamics/core/interactions.py:53-70", "crowddynamics/core/motion/power_law.py:84-126", "crowddynamics/core/motion/power_law.py:215-250", "crowddynamics/core/distance.py:16-47", "crowddynamics/core/motion/contact.py:12-48"]}
{"id": "C167", "title": "Interactions of equal agents do not change the total force in floating point", "statement": "If all agents are circular with the same parameters, agent_agent_circular, computed in float64, does not change the sum of the forces that it stores.", "quantifier": "all crowds, all lists of pairs", "why_tests_cant": "The deviation is one rounding error; it is below any tolerance of a test, but it is not zero.", "anchors": ["crowddynamics/core/interactions.py:53-70", "crowddynamics/core/interactions.py:150-155"]}
{"id": "C168", "title": "Intersections of segments in floating point", "statement": "With the rounding of float64, line_intersect answers correctly for all segments that are not parallel.", "quantifier": "all segments with float64 coordinates that are not parallel", "why_tests_cant": "Random segments are practically never almost parallel; the error needs directions that differ by less than 2^-27.", "anchors": ["crowddynamics/core/geom2D.py:36-59"]}
{"id": "C169", "title": "The random clocks in floating point", "statement": "With rounding, poisson_clock yields times in [0, dt) in order, off by at most m rounding errors for time number m, consumes one interval more than it yields times, and ends if the intervals add up to dt.", "quantifier": "all sequences of nonnegative float64 intervals and all float64 horizons", "why_tests_cant": "The failure needs a sum that stands still because the intervals are below its resolution; tests with random intervals do not get there.", "anchors": ["crowddynamics/core/rand.py:41-96"]}
{"id": "C170", "title": "The unit test of wrap_to_pi for all arguments", "statement": "test_wrap_to_pi passes for every float: the result lies between -np.pi and np.pi, and for odd multiples of np.pi it is np.pi if the argument is positive and -np.pi otherwise.", "quantifier": "all float64 arguments", "why_tests_cant": "Hypothesis draws a hundred floats; odd multiples of np.pi other than np.pi itself are never among them, so the last branch of the test is practically never run.", "anchors": ["crowddynamics/core/vector2D.py:12-41", "crowddynamics/core/tests/test_vector2D.py:9-18"]}
{"id": "C171", "title": "The unit tests of vectors, distances and exit capacity for all arguments", "statement": "test_length, test_normalize, test_truncate, test_distance_circle_circle and test_narrow_exit_capacity pass for all arguments their strategies can draw, in float64 with any hypot that is accurate to a few units in the last place.", "quantifier": "all float64 arguments within the bounds of the strategies, every accurate hypot", "why_tests_cant": "The tests use a hundred draws each and tolerances; that no draw can ever fail needs bounds on the accumulated rounding errors.", "anchors": ["crowddynamics/core/tests/test_vector2D.py:47-51", "crowddynamics/core/tests/test_vector2D.py:73-107", "crowddynamics/core/tests/test_distance.py:10-23", "crowddynamics/core/tests/test_evacuation.py:18-26"]}
{"id": "C172", "title": "The unit test of the block list for all draws", "statement": "test_mutable_block_list passes in every dimension, for every number of points and all numbers random() can give: all points of the cube from -1 to 2 are found around the origin.", "quantifier": "all dimensions, sizes and sequences of random numbers", "why_tests_cant": "The test draws a hundred points in two and three dimensions; a point that rounds to the upper border 2.0 would be missed and is too rare to be drawn.", "anchors": ["crowddynamics/core/tests/test_block_list.py:10-25", "crowddynamics/core/block_list.py:11-110"]}
{"id": "C173", "title": "The unit test of line_intersect for all arguments", "statement": "test_line_intersect passes for all segments: the function agrees with the geometric intersection of the segments.", "quantifier": "all segments with float64 coordinates in [0, 1] that are not shorter than 1e-8", "why_tests_cant": "Random segments are never collinear; equal or overlapping segments are drawn only if the shrinking of hypothesis happens to produce them.", "anchors": ["crowddynamics/core/tests/test_geom2D.py:19-30", "crowddynamics/core/geom2D.py:36-59"]}
{"id": "C174", "title": "The unit tests of the random clocks for all draws", "statement": "test_poisson_clock and test_poisson_timings pass whatever intervals the generator draws: the times increase strictly from 0 and stay below dt, and only players are yielded.", "quantifier": "all sequences of drawn intervals, all interval and dt of the strategies, all players", "why_tests_cant": "A zero interval has probability 2^-53 per draw; tests do not see it.", "anchors": ["crowddynamics/core/tests/test_rand.py:10-32", "crowddynamics/core/rand.py:41-96"]}
{"id": "C175", "title": "The unit tests of the integrators for all arguments", "statement": "The tests of adaptive_timestep and of both integrators pass for every crowd, every pair of bounds and any floating point arithmetic: the time step lies between the bounds.", "quantifier": "all crowds, all bounds 0 < dt_min < dt_max, every rounding function, hypot and exp", "why_tests_cant": "The tests use one fixture with random velocities; slow and fast crowds that reach the bounds are not separated.", "anchors": ["crowddynamics/core/tests/test_integrator.py:8-53", "crowddynamics/core/integrator.py:32-97"]}
{"id": "C176", "title": "The unit tests of the samples for all draws", "statement": "test_linestring_sample, test_triangle_area_cumsum, test_random_sample_triangle and test_polygon_sampling pass for all their arguments and all random numbers.", "quantifier": "all meshes and triangles of the strategies, the three polygons of the tests, all random numbers in [0, 1)", "why_tests_cant": "A sample on the boundary of the polygon needs a random number that is exactly zero.", "anchors": ["crowddynamics/core/tests/test_sampling.py:15-62", "crowddynamics/core/sampling.py:10-140"]}
{"id": "C177", "title": "The simulation time in floating point", "statement": "A run with a constant step until a time limit makes the number of updates given by the quotient of limit and step, rounded up. In floating point it can make one more or less, never two, and the time grows with every update.", "quantifier": "all float64 steps and limits of at most 2^25 steps; all numbers of updates up to 2^53 for the error of the sum", "why_tests_cant": "A test compares one run; the drift of the sum of thousands of rounded steps depends on the step.", "anchors": ["crowddynamics/simulation/logic.py:75-75", "crowddynamics/simulation/base.py:123-126", "crowddynamics/core/integrator.py:81-97"]}
{"id": "C178", "title": "The grid of the navigation in floating point", "statement": "In floating point the mesh grid has the rows and columns of the exact grid up to one, its nodes are those of the exact grid up to a small part of the step, and every position inside of the bounds has a valid index.", "quantifier": "all steps, all bounds within 2^44 steps from the origin (2^20 for the nodes), all positions inside of the bounds", "why_tests_cant": "An index outside of the array appears only at positions near the upper bound for particular quotients; sampled positions miss them.", "anchors": ["crowddynamics/core/steering/quickest_path.py:22-49"]}
{"id": "C179", "title": "The integrators in floating point", "statement": "In floating point one step of each integrator gives the position, velocity, orientation and angular velocity of the exact formula up to a few rounding errors of the quantities in the formula; the orientation stays in [-pi, pi] modulo the full turn; an agent without force stays on a straight line up to a drift that grows with the number of steps.", "quantifier": "all agents, all steps between 2^-500 and 1, all numbers of free steps", "why_tests_cant": "A test compares a few steps with a tolerance that was chosen by hand; it neither shows that the tolerance suffices for all states nor that a small velocity is lost entirely.", "anchors": ["crowddynamics/core/integrator.py:103-121", "crowddynamics/core/integrator.py:167-193"]}
{"id": "C180", "title": "Contact of agents in floating point", "statement": "In floating point two circular or three-circle agents are reported as overlapping exactly when they overlap. An agent that was placed overlaps the others by a few rounding errors at most.", "quantifier": "all positions, all radii, all lists of agents, every hypot with an error of at most two units in the last place", "why_tests_cant": "The sign of the distance is wrong only for bodies within rounding error of touching; random positions never hit this case.", "anchors": ["crowddynamics/core/distance.py:19-47", "crowddynamics/core/distance.py:55-105", "crowddynamics/simulation/agents.py:492-506", "crowddynamics/simulation/agents.py:513-533"]}
{"id": "C181", "title": "Contact with walls in floating point", "statement": "In floating point the distance of a circle and a wall is the distance to the nearest point of the wall minus the radius up to a few rounding errors, its normal is a number, and the test of overlap with walls is correct up to this error.", "quantifier": "all positions, all radii, all walls not shorter than 2^-500, every hypot with an error of at most two units in the last place", "why_tests_cant": "The code chooses between three formulas by comparing two rounded numbers. A wrong choice occurs only near the boundaries of the three regions, and the division by zero only at the ends of certain walls.", "anchors": ["crowddynamics/core/distance.py:110-146", "crowddynamics/simulation/agents.py:539-546"]}
{"id": "C182", "title": "The tests of interactions see interactions", "statement": "Each of the six tests of the interactions between agents and of agents with walls can see an interaction: for both agent types some draw of the strategies is such that the tested function adds a force.", "quantifier": "all draws of the strategies, all random numbers of the bodies, all numbers of agents, all enumerations of neighbours", "why_tests_cant": "The tests assert nothing, so they pass whatever the tested functions do; that no draw produces a force can only be seen by reasoning about all draws.", "anchors": ["crowddynamics/core/tests/test_interactions.py:14-79", "crowddynamics/testing.py:101-125", "crowddynamics/core/interactions.py:53-104"]}
{"id": "C183", "title": "Areas of polygons in floating point", "statement": "polygon_area computes in float64 the area of a polygon with n vertices whose coordinates are at most M up to an error of 3 n^2 M^2 2^-53, and without any error when the coordinates are multiples of a power of two by integers of at most 20 binary digits. No relative error can be promised: the triangle (1, 1), (1, 0), (1 + 2^-52, 4) has the area 2^-53 and its computed area is zero. The test of polygon_area passes for every convex hull of five points with coordinates between -10 and 10, provided that the area shapely computes is within 1e-9 of the true area.", "quantifier": "For all polygons with fewer than 2^16 vertices and all bounds M of at least 2^-500 on their coordinates; exactness for all polygons with at most 2^11 vertices on a grid; the test for all vertices it can draw.", "why_tests_cant": "The test draws random vertices and compares with a tolerance of 1e-8; a needle with an area of zero passes unnoticed because the tolerance is absolute.", "anchors": ["crowddynamics/core/geom2D.py:4-33", "crowddynamics/core/tests/test_geom2D.py:11-16"]}
{"id": "C184", "title": "The social force is a finite number", "statement": "For two circular agents of ordinary size and speed (coordinates up to 10**6 m, velocities, radii, masses and factors up to 10**3, time horizons from 10**-3 s) the compiled function force_social_circular raises no exception and returns forces with finite components, neither infinite nor NaN, and not longer than the limit of 2000 N. The statement is false: an agent that touches another and slides past it with a speed of approach near 10**-160 m/s gets a force NaN, or a ZeroDivisionError, depending on the tangential speed. It holds if coordinates, velocities and radii are multiples of 2**-60; and forces with finite components are never longer than 2000 N up to 10**-9 N.", "quantifier": "All pairs of agents whose attributes are float64 numbers within the bounds; every rounding is to nearest, with overflow to infinity; hypot may err by two units in the last place.", "why_tests_cant": "The inputs that fail have velocities near 10**-160, which a random test does not draw; the property test of the social force draws a few hundred pairs, and the others never look for NaN.", "anchors": ["crowddynamics/core/motion/power_law.py:84-102", "crowddynamics/core/motion/power_law.py:105-126", "crowddynamics/core/motion/power_law.py:215-259", "crowddynamics/core/vector2D.py:166-187"]}
{"id": "C185", "title": "The random inputs of the tests", "statement": "The strategies of crowddynamics.testing draw what they describe: reals draws numbers within the bounds, without zero if it is excluded, alone or in arrays of every float type; unit vectors have length one within the tolerance of their test; points, line strings and polygons have the vertices asked for within the bounds, and holes lie in the convex hull of the shell.", "quantifier": "all bounds, all choices of exclude_zero, all float types, all numbers of vertices, all draws, every cos, sin and hypot accurate to a few rounding errors", "why_tests_cant": "The tests of the strategies draw ten examples and assert nothing about them. A zero from a rounded subnormal, or an infinity in a float16 array, is drawn rarely and would make another test fail for reasons outside the tested code.", "anchors": ["crowddynamics/testing.py:15-49", "crowddynamics/testing.py:52-55", "crowddynamics/testing.py:58-62", "crowddynamics/testing.py:65-75", "crowddynamics/testing.py:78-94", "crowddynamics/tests/test_testing.py:27-29"]}
{"id": "C186", "title": "Names of stored simulations", "statement": "The default directory of a stored simulation is named after the simulation and the moment at which it was made. Directories of simulations with the same name, sorted as strings, are in chronological order; simulations with different names or made at different moments have different directories; the metadata contain the name and the timestamp.", "quantifier": "all names, all moments of the Gregorian calendar from year 1 to 9999, all base directories, all given metadata", "why_tests_cant": "str leaves out the microseconds when they are zero, which happens in one of a million runs; the order of the names around this case and around the ends of months and years is never tested.", "anchors": ["crowddynamics/simulation/base.py:14-16", "crowddynamics/simulation/base.py:106-113", "crowddynamics/simulation/base.py:115-118", "crowddynamics/simulation/logic.py:318-325"]}
{"id": "C187", "title": "Undisturbed agents reach the velocity they want, in floating point", "statement": "Computed in float64, the velocity of a circular agent on which only the adjusting force acts tends to its target velocity times its target direction.", "quantifier": "All agents with positive mass and relaxation time whose coordinates are float64 numbers and which had no force before, all time steps of at most 3/10 of the relaxation time, any number of steps.", "why_tests_cant": "C131 holds in exact arithmetic. In float64 the increment of the velocity falls below half a unit in the last place near the goal, so the velocity can stop short of it: a test with a tolerance sees neither the stall nor whether rounding errors add up over millions of steps. The bound holds for every number of steps.", "anchors": ["crowddynamics/core/motion/adjusting.py:51", "crowddynamics/core/motion/adjusting.py:101-108", "crowddynamics/core/integrator.py:164-176", "crowddynamics/simulation/logic.py:59-64", "crowddynamics/simulation/logic.py:67-75", "crowddynamics/simulation/logic.py:89-94"]}
{"id": "C188", "title": "Undisturbed three-circle agents turn to the orientation they want", "statement": "In every run of a shipped simulation, a three-circle agent with the body of a shipped body type that is at rest as to rotation, feels no random torque, is out of reach of everybody and of all walls, and keeps wanting the same orientation, turns to that orientation: the shortest turn that is left tends to 0.", "quantifier": "For all numbers of agents, fields, states, all shipped logic trees except TestMovement, and all run lengths.", "why_tests_cant": "Convergence concerns unlimited runs and arbitrary parameters. The tests of the adjusting torque only check that it returns a float, and no test looks at orientations in the course of a simulation, so that nobody notices that agents with the shipped body types never turn.", "anchors": ["crowddynamics/core/motion/adjusting.py:56-95", "crowddynamics/core/motion/adjusting.py:113-121", "crowddynamics/core/integrator.py:181-195", "crowddynamics/simulation/agents.py:92-95", "crowddynamics/simulation/agents.py:140-147", "crowddynamics/conf/body_types.cfg:1-50", "crowddynamics/simulation/logic.py:89-94", "crowddynamics/simulation/logic.py:258-261"]}
{"id": "C189", "title": "Velocities and angular velocities of three-circle agents stay bounded forever", "statement": "In every run of a shipped simulation (other than TestMovement) with three-circle agents, of any length: if the force on an agent besides its adjusting force never exceeds F, its speed never exceeds target_velocity + tau_adj * F / mass; if the torque besides its adjusting torque never exceeds M, its angular velocity never exceeds target_angular_velocity + tau_rot * M / inertia_rot, whatever orientations it wants; both provided it does not start faster. Out of reach of others and of walls the excess is at most three standard deviations of the random force and torque times the relaxation times, and without random force the velocity relaxes to the desired one at least by the factor 1 - dt / (2 tau_adj) per update, whether the agent turns or not.", "quantifier": "For all shipped logic trees but TestMovement, all crowds of three-circle agents with relaxation times of at least 1/30, target directions of length at most 1 and no force before the first update, all fields, all random numbers, all numbers of updates.", "why_tests_cant": "Bounds for runs of every length; an instability of the integrator, of the torque towards an orientation that jumps or of the coupling of both would show only for some parameters and after many steps. No test runs three-circle agents for more than a few updates.", "anchors": ["crowddynamics/core/integrator.py:181-195", "crowddynamics/core/motion/adjusting.py:56-95", "crowddynamics/core/motion/fluctuation.py:force_fluctuation", "crowddynamics/core/motion/fluctuation.py:torque_fluctuation", "crowddynamics/simulation/logic.py:Integrator"]}
{"id": "C190", "title": "Neither coordinates nor numbering of three-circle agents matter", "statement": "If three-circle agents, walls and random directions are turned and moved together and the agents are renumbered, an update of a simulation built from the physical nodes (Reset, Integrator, Fluctuation, Adjusting, AgentAgentInteractions, AgentObstacleInteractions, Orientation) ends in the same way and leads to the turned, moved and renumbered agents, with angles up to full turns. False of the code: exchanging the numbers of two agents that rub against each other changes their torques, and an agent that wants to turn round turns left in one coordinate system and right in another. What holds, for updates and runs of any length and every numbering, if the cell lists find the same pairs with the same first agents (in any order): scenes that are only moved lead to exactly the moved scene, and turned scenes to the turned scene if nobody wants an angular velocity and everybody has a direction.", "quantifier": "all rotation angles, translations, crowds, walls, random numbers, trees of physical nodes and numbers of updates", "why_tests_cant": "Tests of the source use fixed arrangements and check single functions; a dependence on the coordinate system or on the order of a pair only shows when two complete runs in different coordinates are compared, for all angles and arrangements.", "anchors": ["crowddynamics/core/distance.py:50-105", "crowddynamics/core/interactions.py:75-107", "crowddynamics/core/interactions.py:126-147", "crowddynamics/core/motion/adjusting.py:113-121", "crowddynamics/core/vector2D.py:9-36", "crowddynamics/core/integrator.py:181-193", "crowddynamics/simulation/logic.py:258-261"]}
{"id": "C191", "title": "Three-circle agents out of sight have no influence", "statement": "A group of three-circle agents that nobody else comes near (the gap between any two circles stays at least 3) moves and turns in the same way in every crowd: two runs of a shipped simulation without leaders, with different numbers of agents and different others, agree about every attribute of every member of the group after every update, if they agree about it at the start and the same random numbers are drawn for the group.", "quantifier": "all groups, all pairs of crowds of any size, all runs, of any length, of Outdoor, Hallway, RoomWithOneExit, FourExitsRandomPlacing and TestAgentInteraction with three-circle agents; refuted for agents who change their roles in a pair of touching agents; shown if the cell lists mention the pairs of the group in the same roles, and for single agents without this condition", "why_tests_cant": "The claim compares pairs of simulations of arbitrary crowds over arbitrarily many updates; tests can only compare a few crowds, and the exception (the torques of two touching agents depend on which of them the cell lists mention first) is seen only if others happen to change this order.", "anchors": ["crowddynamics/core/interactions.py:75-107", "crowddynamics/core/interactions.py:150-205", "crowddynamics/core/distance.py:55-107", "crowddynamics/simulation/logic.py:59-165", "crowddynamics/examples/simulations.py:18-300"]}
{"id": "C192", "title": "Three-circle agents do not jump over walls", "statement": "In no run of a shipped simulation with walls does a circle (torso or shoulder) of a three-circle agent that does not touch a wall pass it in the next update.", "quantifier": "all runs, of any length, of the shipped simulations (other than TestMovement) with three-circle agents, all walls, all updates and all circles; refuted for very fast agents; shown for agents whose step, at most dt V (1 + dt / tauAdj) for the torso plus rTs dt W (1 + dt / tauRot) for the shoulders, is shorter than the radius of the circle, with the limits V and W of C189", "why_tests_cant": "Tests cannot exclude that in some long run the discrete steps and turns carry a circle over a wall without touching it; the bound must hold for all forces, torques and times.", "anchors": ["crowddynamics/core/integrator.py:167-193", "crowddynamics/core/integrator.py:209-256", "crowddynamics/core/interactions.py:126-147", "crowddynamics/simulation/logic.py:59-135"]}
{"id": "C193", "title": "A crowd that walks one way is not turned round", "statement": "If all leaders (and, with herding, all neighbours) that a follower sees walk in one direction, up to 48 degrees, then the direction that LeaderFollower or LeaderFollowerWithHerding gives to the follower has a component in this direction that is not negative, with an explicit lower bound; if they walk in exactly the same direction then the new direction is at most 42 degrees off, and without leaders in sight at most 11 degrees.", "quantifier": "all crowds, positions, speeds, walls, sights, numbers of neighbours and directions", "why_tests_cant": "The direction depends on all visible neighbours, on the order of leaders by distance and on three weights; the worst case is a configuration that no test hits by chance.", "anchors": ["crowddynamics/core/steering/collective_motion.py:110-155", "crowddynamics/core/steering/collective_motion.py:158-221", "crowddynamics/core/steering/collective_motion.py:240-279", "crowddynamics/simulation/logic.py:175-182", "crowddynamics/simulation/logic.py:210-221"]}
{"id": "C194", "title": "Driven three-circle agents get ahead and leave the field", "statement": "In every run of a shipped simulation (other than TestMovement) with three-circle agents: if what drives an agent (the velocity it wants plus everything that disturbs it) always points at rate c or more in a direction then after k updates the agent has advanced by dt * k * c in this direction, up to a constant; an agent out of reach of others and of walls advances as soon as its target velocity outweighs the random force, and so leaves every bounded domain and is marked as not active from an explicit update on. How the agent turns does not matter.", "quantifier": "all runs of the shipped simulations with three-circle agents, all numbers of updates, all random draws", "why_tests_cant": "A test follows an agent for some updates; the claim is about every number of updates and every sequence of random forces.", "anchors": ["crowddynamics/core/integrator.py:164-256", "crowddynamics/simulation/logic.py:67-75", "crowddynamics/simulation/logic.py:341-357", "crowddynamics/core/motion/adjusting.py:16-51"]}
{"id": "C195", "title": "Three-circle agents change no total momentum by pushing each other", "statement": "In every run of a shipped simulation (other than TestMovement) with three-circle agents that have the same mass, social, contact and friction parameters, every update changes the total momentum by exactly 0.01 / 2 times the sum of the outside forces (random, adjusting, walls) of this and the last update, whichever torsos and shoulders touch and although the rotations of the agents are driven with wrong arms (C123).", "quantifier": "all runs of any length, all crowds", "why_tests_cant": "it is an exact balance over all configurations; a test would see one configuration, up to rounding", "anchors": ["crowddynamics/core/interactions.py:74-110", "crowddynamics/core/interactions.py:158-166", "crowddynamics/core/integrator.py:164-256"]}
{"id": "C196", "title": "The tests of the test simulations pass", "statement": "Both tests in test_validation.py pass for both types of agents: after 1000 updates, which raise no exception, the first agent of TestMovement is at least 10 metres and that of TestAgentInteraction at least 8 metres from its start (or within the tolerance of isclose).", "quantifier": "for both types of agents, all sequences of random numbers within their intervals and every cell list library that reports the pairs of neighbours", "why_tests_cant": "The tests run with a few sequences of random numbers; whether the agents pass each other depends on sideways random forces, so that a passing run says nothing about other draws, and no run shows that agents never pass in any number of updates.", "anchors": ["crowddynamics/examples/tests/test_validation.py:13-38", "crowddynamics/examples/validation.py:17-126"]}
{"id": "C197", "title": "Nobody jumps over another agent", "statement": "In a run, two agents whose bodies do not overlap do not change sides in the next update: while both move straight from their old to their new positions, each stays on the side of the other on which it was.", "quantifier": "for all shipped simulations other than TestMovement, all numbers of circular agents, all lengths of runs and all pairs of agents", "why_tests_cant": "Tests look at states after updates; that two bodies do not pass through each other between two updates is a statement about all pairs, states and moments.", "anchors": ["crowddynamics/core/integrator.py:adaptive_timestep", "crowddynamics/core/integrator.py:velocity_verlet_integrator", "crowddynamics/core/interactions.py:agent_agent_block_list", "crowddynamics/simulation/logic.py:AgentAgentInteractions"]}
{"id": "C198", "title": "Contacts push bodies apart", "statement": "The force that overlapping agents exert on each other, and that a wall exerts on an agent that overlaps it, never pulls the agent towards the other one or the wall; across it is friction that acts against the slip.", "quantifier": "for all pairs of overlapping circular agents with different centres, all walls, circular and three-circle agents, all positions, velocities and radii, and all constants mu, kappa, damping that are not negative", "why_tests_cant": "Tests with agents at rest or with deep overlaps see a repulsion; the pull appears only for small overlaps together with an approach speed above mu times overlap over damping.", "anchors": ["crowddynamics/core/motion/contact.py:force_contact", "crowddynamics/core/interactions.py:interaction_agent_agent_circular", "crowddynamics/core/interactions.py:interaction_agent_circular_obstacle", "crowddynamics/core/interactions.py:interaction_agent_three_circle_obstacle"]}
{"id": "C199", "title": "Walls do not speed anybody up", "statement": "In a run, an agent who wants to stand still, on whom no random force acts and who is out of reach of all other agents, is never faster than at the start.", "quantifier": "for all shipped simulations other than TestMovement with circular agents, all fields, all lengths of runs and all such agents with contact constants that are not negative", "why_tests_cant": "The energy that a contact with a wall adds is small and shows only after many contacts; a test of one contact or of one force value does not see it.", "anchors": ["crowddynamics/core/motion/contact.py:force_contact", "crowddynamics/core/interactions.py:agent_circular_obstacle", "crowddynamics/core/integrator.py:velocity_verlet_integrator", "crowddynamics/simulation/logic.py:AgentObstacleInteractions"]}
{"id": "C200", "title": "Walls hold those between them", "statement": "In a run, an agent with the contact constants of the code, of radius at least 0.2 m and mass at least 50 kg, who starts clear of all walls with at most 2 m/s, wants to stand still, and is out of reach of all other agents, never passes a wall.", "quantifier": "for all shipped simulations with walls and circular agents, all fields, all lengths of runs and all such agents without random force", "why_tests_cant": "Tests run a few seconds in wide rooms; that the walls of a narrow corridor throw a pedestrian through themselves after hundreds of contacts needs a long run in a particular geometry.", "anchors": ["crowddynamics/core/motion/contact.py:force_contact", "crowddynamics/core/interactions.py:agent_circular_obstacle", "crowddynamics/core/integrator.py:velocity_verlet_integrator", "crowddynamics/simulation/logic.py:AgentObstacleInteractions"]}
{"id": "C201", "title": "Three-circle agents do not jump over each other", "statement": "In a run, circles (torsos or shoulders) of two three-circle agents that do not overlap do not change sides in the next update: while both move straight from their old to their new positions, each stays on the side of the other on which it was.", "quantifier": "for all shipped simulations other than TestMovement, all numbers of three-circle agents, all lengths of runs, all pairs of agents and all pairs of their circles", "why_tests_cant": "Tests look at states after updates; that no two body parts pass through each other between two updates is a statement about all pairs, states and moments.", "anchors": ["crowddynamics/core/integrator.py:velocity_verlet_integrator", "crowddynamics/core/integrator.py:rotational_verlet", "crowddynamics/core/interactions.py:interaction_agent_agent_three_circle", "crowddynamics/simulation/agents.py:shoulders"]}
{"id": "C202", "title": "A wall stops an agent who walks against it", "statement": "In every run of a shipped simulation with circular agents, however long, an agent who stays beside a straight wall is stopped by it, although the damping term of the contact force pulls the agent on: its centre never sinks in by more than a given depth less than its radius and never passes the wall, if the constants of the agent satisfy stated inequalities and everything else that acts on it is bounded. With the constants of the code and the body of any shipped body type, an agent who is out of reach of the others, touches no other wall and wants to walk wherever it likes keeps its centre at least 4 cm away from the wall and never moves towards it faster than 2.7 m/s.", "quantifier": "all completed runs of all shipped simulations other than TestMovement, all numbers of updates, all walls, all directions of walking and all draws of the random force; for all shipped body types and all draws of the bodies", "why_tests_cant": "A contact force that adds energy may hold in every tried run and fail after many contacts, as it does between two walls (C200). That one wall holds for all time needs an invariant of the step recursion, not a number of runs.", "anchors": ["crowddynamics/core/interactions.py:agent_circular_obstacle", "crowddynamics/core/motion/contact.py:force_contact", "crowddynamics/core/motion/adjusting.py:force_adjust", "crowddynamics/core/integrator.py:velocity_verlet_integrator"]}
{"id": "C203", "title": "The forces of the interactions are finite", "statement": "For circular agents and walls of ordinary size (coordinates up to 10**6 m, velocities, radii, masses and factors up to 10**3, contact constants up to 10**6, time horizons from 10**-3 s) the compiled functions agent_agent_circular and agent_circular_obstacle raise no exception and leave forces with finite components. The statement is false: an agent whose centre is the end of the wall from (0, 0) to (2, 3) gets the force NaN, and two agents that slide past each other (see C184) both get the force NaN. It holds if coordinates, velocities and radii are multiples of 2**-60 and no centre is an end of a wall, for any number of pairs and walls with 2 * pairs + agents * walls + 1 < 2**53. Then the forces are those of the rounded operations without overflow.", "quantifier": "All crowds, all lists of pairs, all lists of walls whose attributes are float64 numbers within the bounds; every rounding is to nearest, with overflow to infinity; hypot may err by two units in the last place.", "why_tests_cant": "A NaN appears only for agents exactly on the end of certain walls or with velocities near 10**-160; the tests draw neither, and comparisons with NaN hide the effect until the position itself is NaN.", "anchors": ["crowddynamics/core/interactions.py:53-70", "crowddynamics/core/interactions.py:110-120", "crowddynamics/core/interactions.py:150-155", "crowddynamics/core/interactions.py:172-176", "crowddynamics/core/motion/contact.py:14-48", "crowddynamics/core/distance.py:110-146"]}
{"id": "C204", "title": "A force that is not a number stays with its agent", "statement": "For circular agents with any positions, velocities and forces (infinities and NaN included), target velocities up to 2**10 and 0 <= dt_min <= dt_max <= 2**10: adaptive_timestep raises no exception and returns a number between dt_min and dt_max; agents whose attributes are finite and at most 2**400 have finite positions and velocities after euler_integrator and velocity_verlet_integrator, whatever the other agents are; if all agents are such, the results are those of the rounded operations without overflow; an agent whose speed is NaN counts as one at rest, so the time step and the results of all other agents are those of the same crowd with that agent standing still; and an agent that gets the force NaN in one coordinate in one update has position and velocity NaN in this coordinate after this update and after every later one, with any forces and either integrator, while no update raises an exception.", "quantifier": "All crowds, all sequences of updates with arbitrary forces and a choice of integrator at each update, all bounds of the time step in the range; arithmetic is IEEE double with overflow to infinity and NaN.", "why_tests_cant": "A NaN appears only at rare states (C203), and afterwards every comparison with it is false without any error; a test would have to produce such a state and look at the position of this agent many updates later. The claim about all other agents needs all crowds.", "anchors": ["crowddynamics/core/integrator.py:32-97", "crowddynamics/core/integrator.py:100-109", "crowddynamics/core/integrator.py:124-161", "crowddynamics/core/integrator.py:164-176", "crowddynamics/core/integrator.py:209-256"]}
{"id": "C205", "title": "An agent that is not a number has no influence", "statement": "A circular agent whose position and velocity are NaN in one coordinate (see C203, C204) exerts no force on others and gets none from others or from walls; a run with any number of updates is the same if the pairs of neighbours with this agent are left out, and it stays lost; with a fixed time step (the default) all other agents move as if this agent were not in the array, with the same exceptions. For finite agents the interactions are those of C203.", "quantifier": "All crowds with positions and velocities that may be infinite or NaN, all walls, all numbers of updates, all random forces, target directions and lists of pairs, provided the cell lists (an external library) yield the same pairs of the other agents, nobody follows the lost agent, and its tau_adj is not zero.", "why_tests_cant": "A test cannot compare a run with a lost agent with the run without it for all crowds and all later updates; the reason is that every comparison with NaN is false, which no test looks at.", "anchors": ["crowddynamics/core/interactions.py:53-70", "crowddynamics/core/interactions.py:110-120", "crowddynamics/core/interactions.py:150-155", "crowddynamics/core/interactions.py:172-176", "crowddynamics/core/distance.py:16-47", "crowddynamics/core/distance.py:108-146", "crowddynamics/core/motion/adjusting.py:51-51", "crowddynamics/core/integrator.py:209-256", "crowddynamics/simulation/logic.py:59-132"]}
{"id": "C206", "title": "An update of an ordinary crowd is finite", "statement": "For circular agents and walls of ordinary size (coordinates up to 2**20 m, velocities and radii up to 2**10, multiples of 2**-60, other attributes within wide bounds) with no centre on the end of a wall, a whole update (random force, adjusting force, interactions with agents and walls, integrator, reset) in IEEE arithmetic raises no exception, leaves all attributes finite, and gives the result of the rounded operations without overflow. With a fixed time step this holds for these agents also if there is one more agent in the array whose position and velocity are NaN in one coordinate.", "quantifier": "All such crowds, all lists of pairs and walls with 2 * pairs + agents * walls + 1 < 2**53, all random forces up to 2**20 N and target directions up to 2 in each coordinate, all time steps 0 <= dt_min <= dt_max <= 2**10; hypot and exp may be inaccurate.", "why_tests_cant": "Overflow, division by zero and NaN depend on rare combinations of all attributes; a test samples a few crowds of typical size.", "anchors": ["crowddynamics/examples/simulations.py:125-134", "crowddynamics/simulation/logic.py:59-132", "crowddynamics/core/motion/adjusting.py:51-51", "crowddynamics/core/motion/adjusting.py:101-108", "crowddynamics/core/interactions.py:53-70", "crowddynamics/core/interactions.py:110-120", "crowddynamics/core/integrator.py:32-97", "crowddynamics/core/integrator.py:209-256"]}
{"id": "C207", "title": "An agent who presses against a wall comes to rest", "statement": "In a shipped simulation that runs on for ever, a circular agent without random force, alone beside a straight wall, who always wants to walk straight against this wall, comes to rest there: its speed tends to zero. This is false of the code. The damping term of the contact force has the wrong sign and feeds the motion across the wall, with the constants of the code more than the adjusting force takes from it. For every such agent, of any mass between 50 and 90 kg, any radius of at least 19 cm and any target velocity between 0.4 and 1.75 m/s, the opposite holds: again and again, without end, it moves across the wall with more than a thousandth of its target velocity, it lets go of the wall again and again, and comes back to it again and again. It does stay at the wall: it never sinks in by more than 15 cm, and never moves into it faster than 2.7 m/s.", "quantifier": "all fields and walls, all orders of the nodes of the shipped simulations, all runs without end, all bodies in the stated ranges with the constants of the code (adjusting time 0.5, contact strength 1.2e5, damping 500), all starts clear of the wall and no faster than the target velocity", "why_tests_cant": "A test sees finitely many updates of one agent, and cannot tell a motion that dies out slowly from one that never ends; here it is shown for all times and all bodies.", "anchors": ["crowddynamics/core/motion/contact.py:force_contact", "crowddynamics/core/interactions.py:agent_circular_obstacle", "crowddynamics/core/motion/adjusting.py:force_adjust", "crowddynamics/core/integrator.py:velocity_verlet_integrator"]}
{"id": "C208", "title": "A wall stops an agent who walks against it, in floating point", "statement": "With float64 arithmetic, rounding after each operation, an agent who walks straight against an upright wall is stopped by it, however many updates are made, although the damping term of the contact force pulls the agent on. With the constants of the code (adjusting time 0.5, contact strength 1.2e5, damping 500, time step 0.01), any mass between 50 and 90 kg, any radius between 19 cm and 1 m and any target velocity between 0.4 and 1.7 m/s, an agent who starts clear of the wall never sinks in by more than 15.1 cm, so that its centre stays at least 3.9 cm away from the wall, never moves towards the wall faster than 2.71 m/s, never gets further away than 1010 m, does not leave its line, and gets no force that is not a number. It does get to the wall, and comes back whenever it is thrown off: from each moment on, at most 260000 updates pass until it touches the wall. Nothing overflows: if infinities, NaN and exceptions are modelled too, the run is the same.", "quantifier": "all numbers of updates, all floats for the position of the wall (up to 1000 in size), the start, the radius, the target velocity and the velocity at the start (up to 1.75 m/s), all masses in the range; walls parallel to the second axis, with the agent on its left and with floats as ends, one agent, no random force, hypot correctly rounded; for the claim about overflow, ends of the wall and friction constant of at most a million", "why_tests_cant": "The step from exact to rounded arithmetic adds an error in each of some twenty operations of each update, in a motion that the damping term makes unstable. Tests show that nothing happened in the updates that were made; that errors never add up to a passage through the wall needs an invariant that is kept in spite of them.", "anchors": ["crowddynamics/core/interactions.py:agent_circular_obstacle", "crowddynamics/core/distance.py:distance_circle_line", "crowddynamics/core/motion/contact.py:force_contact", "crowddynamics/core/motion/adjusting.py:force_adjust", "crowddynamics/core/integrator.py:velocity_verlet_integrator"]}
{"id": "C209", "title": "Turns by right angles and reflections change no digit", "statement": "In floating point, if agents, walls, random forces and target directions are all turned by a multiple of 90 degrees, or reflected in an axis or a diagonal, the agents after any number of updates are the turned or reflected ones, digit by digit, and a force is not a number in the one run if and only if it is in the other. This remains so when numbers overflow, become infinite or not a number, or an exception is raised. Hence walls stop agents who walk straight against them (C208) from all four sides.", "quantifier": "all eight symmetries of the axes, all crowds of circular agents, walls, random forces, target directions, pairs of neighbours and numbers of updates, any rounding that treats both signs alike and any hypot that depends neither on signs nor on the order of its arguments; for the model with overflow also random forces, target directions and pairs that change from update to update", "why_tests_cant": "In exact arithmetic no turn matters (C133); in floating point an order of operations that treats the axes differently, such as a sum from left to right over more than two terms or a normal that is only computed for one side, would break the symmetry in the last digit, which grows in the course of a simulation. A test compares a few turned scenes, mostly with a tolerance.", "anchors": ["crowddynamics/core/interactions.py:interaction_agent_agent_circular", "crowddynamics/core/interactions.py:agent_circular_obstacle", "crowddynamics/core/distance.py:distance_circle_line", "crowddynamics/core/motion/power_law.py:force_social_circular", "crowddynamics/core/motion/contact.py:force_contact", "crowddynamics/core/integrator.py:velocity_verlet_integrator"]}
{"id": "C210", "title": "Mirror images stay mirror images in floating point", "statement": "Two circular agents without walls who are mirror images of each other (with respect to an axis, a diagonal or the origin) and have the same parameters are mirror images after any number of updates, digit by digit, if their random forces and target directions are, whichever of the two the cell list yields first. In particular two agents who are opposite with respect to the origin never drift: the sums of their positions and of their velocities are exactly zero for ever.", "quantifier": "all such pairs of agents, random forces, target directions, time steps, orders of the pair and numbers of updates; any rounding that is monotone, idempotent and treats both signs alike, any hypot that depends neither on signs nor on the order of its arguments and any exp; no overflow, two agents", "why_tests_cant": "The code computes the forces of a pair from the point of view of the first agent. A last digit that differs between the two would break the symmetry, and errors grow in an encounter; tests compare with a tolerance after few updates.", "anchors": ["crowddynamics/core/interactions.py:interaction_agent_agent_circular", "crowddynamics/core/distance.py:distance_circles", "crowddynamics/core/motion/power_law.py:force_social_circular", "crowddynamics/core/motion/contact.py:force_contact", "crowddynamics/core/integrator.py:velocity_verlet_integrator"]}
{"id": "C211", "title": "The order of the pairs has no influence in floating point", "statement": "The order in which the cell list yields the pairs of neighbours, and with it the numbering of the agents, has no influence on the computed forces between circular agents. In exact arithmetic this holds (C133); in floating point it is false, since sums depend on the order. What holds: for two orders of the pairs, the force on an agent differs in each coordinate by no more than 2^-51 of the sum of the sizes of the forces on it, for each pair it belongs to, nothing else differs, and an agent with a single neighbour in sight gets the same force digit by digit.", "quantifier": "all crowds of circular agents, all lists of pairs of different agents and all rearrangements of them, agents with at most 2^52 neighbours; rounding to float64, no overflow", "why_tests_cant": "Results that change in the last digit with the order of the agents look like noise in a test with a tolerance; that the difference is bounded for each crowd and each order cannot be seen from examples.", "anchors": ["crowddynamics/core/interactions.py:interaction_agent_agent_circular", "crowddynamics/core/interactions.py:agent_agent_circular"]}
{"id": "C212", "title": "The numbers of the agents have no influence of their own in floating point", "statement": "If the agents are numbered differently and the pairs of neighbours come in the same order as before, every agent moves exactly as before, digit by digit, for any number of updates, and the same exceptions are raised. The numbering matters only through the order in which the cell list yields the pairs (C211): neither the loops over agents for the adjusting force and the walls, nor the largest speed and the largest target velocity that the time step is computed from, nor the integrator depend on it.", "quantifier": "all permutations of the agents, all crowds of circular agents, walls, time steps, sequences of random forces, target directions and pairs, any rounding, hypot and exp; positions, velocities and forces may be infinite or NaN", "why_tests_cant": "A loop that carries something from one agent to the next, or a maximum that a NaN can reset depending on its place, shows up only for certain orders and values. Tests use one order.", "anchors": ["crowddynamics/core/interactions.py:agent_agent_circular", "crowddynamics/core/interactions.py:agent_circular_obstacle", "crowddynamics/core/motion/adjusting.py:force_adjust_agents", "crowddynamics/core/integrator.py:adaptive_timestep", "crowddynamics/core/integrator.py:velocity_verlet_integrator"]}
{"id": "C213", "title": "Which agent of a pair comes first has no influence in floating point", "statement": "Exchanging the two different agents of a pair leaves the force that each of them gets exactly as it was, digit by digit, and the same exceptions are raised. Hence runs in which the pairs come in the same order, but with the agents of some pairs exchanged, are equal for any number of updates; together with C212, numbering the agents differently changes nothing as long as the cells yield the same pairs of agents in the same order, whichever of the two comes first.", "quantifier": "all pairs of different circular agents, all crowds, walls, time steps and sequences of random forces, target directions and pairs; any rounding and hypot that ignore signs, and the rounding of the machine in particular; positions, velocities and forces may be infinite or NaN", "why_tests_cant": "The code computes the force on the second agent with other expressions than the force on the first: it negates the social force before it limits it and subtracts the contact force. That each rounding commutes with these changes of sign has to be shown for every intermediate value.", "anchors": ["crowddynamics/core/interactions.py:interaction_agent_agent_circular", "crowddynamics/core/interactions.py:agent_agent_circular", "crowddynamics/core/motion/power_law.py:force_social_circular", "crowddynamics/core/motion/contact.py:force_contact", "crowddynamics/core/distance.py:distance_circles"]}
{"id": "C214", "title": "Only the order in which each agent meets the others matters, and symmetric crowds stay symmetric", "statement": "If every agent meets the same agents in the same order in two lists of pairs, the runs are equal digit by digit and raise the same exceptions, however the pairs are interleaved and whichever agent of a pair comes first. Hence a crowd of any size that a reflection at an axis or a diagonal or a turn by a multiple of 90 degrees maps to itself stays exactly symmetric for any number of updates, if the random forces and directions are symmetric, each wall is its own image, and each agent meets the others in the order in which its image meets their images. In particular agents in single file on an axis, with walls on this axis only, never leave it by a single digit (unless an overflow makes the coordinate NaN).", "quantifier": "all crowds of circular agents, lists of pairs of different agents, symmetries of the axes, walls that are their own images, time steps and sequences of random forces and directions; any rounding and hypot that ignore signs and the order of coordinates; positions, velocities and forces may be infinite or NaN", "why_tests_cant": "Forces of different pairs are added up in one array. That pairs without a common agent commute exactly, also when one of them raises an exception or produces a NaN, and that a symmetric crowd of any size shows no drift in its last digits, cannot be seen from some runs compared with a tolerance.", "anchors": ["crowddynamics/core/interactions.py:interaction_agent_agent_circular", "crowddynamics/core/interactions.py:agent_agent_circular", "crowddynamics/core/motion/power_law.py:force_social_circular", "crowddynamics/core/integrator.py:velocity_verlet_integrator"]}
{"id": "C215", "title": "An agent who is infinitely far away has no influence", "statement": "A circular agent with a coordinate that is infinite or NaN (after an overflow), whatever its velocity is, exerts no force on others, gets none from others or from walls, and causes no exception in the interactions. In a run of any number of updates it never gets back to a finite position, and the run is the same if its pairs are left out; with a fixed time step (the default) all other agents move as if it were not in the array. Its distance from an upright wall is infinite with a normal of length one that points to its side. This extends C205, which is about agents whose position and velocity are NaN.", "quantifier": "all crowds of circular agents, walls, time steps, random forces, directions and pairs, any rounding, hypot and exp; for the removal, float64 rounding, target velocities and time steps up to 1024 and tau_adj of the agent not zero; for the normal, upright walls of finite computed length, float64 rounding and correctly rounded hypot", "why_tests_cant": "An overflowed position makes later operations yield infinity minus infinity or zero times infinity. That all of these end in comparisons that are false, on every path through the distance functions, and for ever after, is not visible in tests, which use finite positions.", "anchors": ["crowddynamics/core/distance.py:distance_circles", "crowddynamics/core/distance.py:distance_circle_line", "crowddynamics/core/interactions.py:interaction_agent_agent_circular", "crowddynamics/core/interactions.py:interaction_agent_circular_obstacle", "crowddynamics/core/integrator.py:velocity_verlet_integrator"]}
