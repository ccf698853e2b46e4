{"id": "C01", "title": "Angle wrapping is canonical", "statement": "wrap_to_pi(x) lies in [-pi, pi), differs from x by an integer multiple of 2*pi, is the only number with those two facts, and wrapping twice is the same as wrapping once.", "quantifier": "every real angle x", "why_tests_cant": "ranges over all reals, including the boundary points where the sign of the modulo matters", "anchors": ["highway_env/utils.py:wrap_to_pi"]}
{"id": "C02", "title": "Linear remapping is the affine map between two ranges", "statement": "lmap(v, x, y) sends the end points of range x to the end points of range y, is affine in v, maps range x into range y, preserves order when both ranges are increasing, and mapping back from y to x recovers v.", "quantifier": "every value v and every pair of non-degenerate ranges", "why_tests_cant": "real-valued, infinitely many ranges; rewards and observations of every environment rest on it", "anchors": ["highway_env/utils.py:lmap"]}
{"id": "C03", "title": "Denominators are never zero", "statement": "not_zero(x) is never within less than eps of zero, leaves x unchanged when |x| > eps, and keeps the sign of every non-zero x; the value chosen at x = 0 is -eps.", "quantifier": "every real x and every eps > 0", "why_tests_cant": "the interesting points are a measure-zero set (x = 0, x = +-eps)", "anchors": ["highway_env/utils.py:not_zero"]}
{"id": "C04", "title": "Rectangle collision test is symmetric", "statement": "rotated_rectangles_intersect(a, b) equals rotated_rectangles_intersect(b, a).", "quantifier": "every pair of rectangles (centre, length, width, angle)", "why_tests_cant": "continuum of rectangles", "anchors": ["highway_env/utils.py:rotated_rectangles_intersect", "highway_env/utils.py:has_corner_inside"]}
{"id": "C05", "title": "Collision test is exact for vehicles aligned with the road", "statement": "For two equally sized rectangles both at angle 0 the test answers True exactly when the two closed rectangles have a common point.", "quantifier": "every pair of centres and every length, width >= 0", "why_tests_cant": "must hold for all positions, touching boundaries included", "anchors": ["highway_env/utils.py:rotated_rectangles_intersect", "highway_env/utils.py:point_in_rotated_rectangle"]}
{"id": "C06", "title": "Collision test is exact for rotated rectangles", "statement": "rotated_rectangles_intersect answers True exactly when the two rotated rectangles have a common point. (False of the code: both false positives and false negatives exist; the exact set the code decides is characterised.)", "quantifier": "every pair of rotated rectangles", "why_tests_cant": "existence of a wrong answer somewhere in a 10-dimensional continuum; an example that passes shows nothing", "anchors": ["highway_env/utils.py:rotated_rectangles_intersect", "highway_env/utils.py:point_in_rotated_rectangle", "highway_env/utils.py:has_corner_inside"]}
{"id": "C07", "title": "The cheap distance pre-check never hides a collision", "statement": "Skipping the rectangle test when two vehicles' centres are further apart than a vehicle length never changes the collision verdict, whatever the two headings.", "quantifier": "every pair of vehicle/obstacle poses", "why_tests_cant": "all positions and headings; the bound depends on the geometry of nine sample points under any rotation", "anchors": ["highway_env/vehicle/kinematics.py:Vehicle._is_colliding"]}
{"id": "C08", "title": "Crashes are permanent", "statement": "Once a vehicle is marked crashed it stays crashed for the rest of the episode, whatever actions are sent and whatever the other vehicles do.", "quantifier": "every road, every sequence of actions, every number of simulation steps", "why_tests_cant": "an invariant over unbounded histories", "anchors": ["highway_env/vehicle/kinematics.py:Vehicle.check_collision", "highway_env/vehicle/kinematics.py:Vehicle.step", "highway_env/road/road.py:Road.step", "highway_env/envs/common/abstract.py:AbstractEnv.step"]}
{"id": "C09", "title": "Every collision between two vehicles crashes both", "statement": "After a simulation step, a pair of distinct collidable vehicles that overlapped when the pairwise test was run are both marked crashed, and no vehicle is marked crashed unless it already was or it collided with some vehicle or obstacle.", "quantifier": "every set of vehicles and objects, any number, any order in the list", "why_tests_cant": "order of the pairwise loop and its in-loop speed mutation must not matter, for any number of vehicles", "anchors": ["highway_env/road/road.py:Road.step", "highway_env/vehicle/kinematics.py:Vehicle.check_collision"]}
{"id": "C10", "title": "A collision never speeds up a vehicle", "statement": "The pairwise collision pass never increases the absolute speed of any vehicle, and vehicles that take part in no collision are left untouched.", "quantifier": "every vehicle list and object list", "why_tests_cant": "loop over all pairs with in-place updates", "anchors": ["highway_env/vehicle/kinematics.py:Vehicle.check_collision", "highway_env/road/road.py:Road.step"]}
{"id": "C11", "title": "A crashed vehicle coasts to a stop in a straight line", "statement": "From the moment of the crash, whatever action is set, the vehicle's heading no longer changes and after n further steps of duration dt its speed is the crash speed times (1-dt)^n; for dt in (0,1] the speed never changes sign and tends to 0, and the total distance travelled is bounded. (False for a dynamical bicycle with a yaw rate and for a vehicle crashed while reversing above the maximum speed.)", "quantifier": "every action sequence, every n, every dt", "why_tests_cant": "unbounded number of steps", "anchors": ["highway_env/vehicle/kinematics.py:Vehicle.clip_actions", "highway_env/vehicle/kinematics.py:Vehicle.step"]}
{"id": "C12", "title": "Forward speed stays in an envelope", "statement": "Starting with |speed| at most MAX_SPEED + a*dt and as long as |commanded acceleration| <= a, |speed| never exceeds MAX_SPEED + a*dt, for any number of steps (0 <= dt <= 1). The two directions are not symmetric: below -MAX_SPEED every command is replaced by a forward acceleration of more than 2*MAX_SPEED per second.", "quantifier": "every command sequence and every number of steps", "why_tests_cant": "invariant over unbounded histories", "anchors": ["highway_env/vehicle/kinematics.py:Vehicle.clip_actions", "highway_env/vehicle/kinematics.py:Vehicle.step"]}
{"id": "C13", "title": "One step moves a vehicle by speed*dt", "statement": "In one simulation step the centre moves by exactly |speed|*dt, in direction heading + slip angle, and the slip angle has tangent half the tangent of the steering angle; heading does not change when steering is 0.", "quantifier": "every vehicle state, action and dt", "why_tests_cant": "continuum of states", "anchors": ["highway_env/vehicle/kinematics.py:Vehicle.step"]}
{"id": "C14", "title": "The motion model does not depend on where the world's origin or axes are", "statement": "Rotating and translating a vehicle's pose and stepping gives the rotated and translated result of stepping.", "quantifier": "every pose, action, dt, rotation and translation", "why_tests_cant": "continuum of states and symmetries", "anchors": ["highway_env/vehicle/kinematics.py:Vehicle.step"]}
{"id": "C15", "title": "Constant-action straight driving has the exact discrete closed form", "statement": "With zero steering and constant acceleration a, after n steps below the speed limit the vehicle is on its initial heading line, at speed v+n*a*dt, having advanced n*v*dt + a*dt^2*n(n-1)/2.", "quantifier": "every initial state and n", "why_tests_cant": "induction over unbounded n", "anchors": ["highway_env/vehicle/kinematics.py:Vehicle.step"]}
{"id": "C16", "title": "Straight lanes: local and global coordinates are mutually inverse", "statement": "position(local_coordinates(p)) = p and local_coordinates(position(s,r)) = (s,r), and distances are preserved.", "quantifier": "every straight lane with distinct end points, every point", "why_tests_cant": "continuum", "anchors": ["highway_env/road/lane.py:StraightLane"]}
{"id": "C17", "title": "Sine lanes: local and global coordinates are mutually inverse", "statement": "Same round trips as for straight lanes hold for sine lanes with any amplitude, pulsation and phase, and heading_at is the tangent direction of the lane's centre line.", "quantifier": "every sine lane and every point", "why_tests_cant": "continuum; tangent claim is about a derivative", "anchors": ["highway_env/road/lane.py:SineLane"]}
{"id": "C18", "title": "Circular lanes: local and global coordinates are mutually inverse", "statement": "position(local_coordinates(p)) = p for every p; local_coordinates(position(s,r)) = (s,r) for points on the lane's near side (radius not crossed) with s within half a turn; longitudinal coordinates lie in the half-turn window; heading_at is tangent to the centre line.", "quantifier": "every circular lane of positive radius, either direction, every point", "why_tests_cant": "angle wrapping branch cuts and two orientations", "anchors": ["highway_env/road/lane.py:CircularLane"]}
{"id": "C19", "title": "Being on a lane means the documented strip", "statement": "on_lane(p) holds exactly when |lateral| <= width/2 + margin and -LENGTH <= longitudinal < length + LENGTH, and supplying the optional precomputed coordinates gives the same answer.", "quantifier": "every lane and position", "why_tests_cant": "continuum", "anchors": ["highway_env/road/lane.py:AbstractLane.on_lane"]}
{"id": "C20", "title": "Forbidden lanes are never reachable", "statement": "is_reachable_from is False for every position on a forbidden lane; for other lanes it holds exactly on the documented strip.", "quantifier": "every lane and position", "why_tests_cant": "continuum", "anchors": ["highway_env/road/lane.py:AbstractLane.is_reachable_from"]}
{"id": "C21", "title": "The closest lane is an existing lane at minimal distance", "statement": "get_closest_lane_index returns the index of a lane that exists in the network and no other lane of the network is strictly closer (heading-aware); it raises ValueError exactly when the network has no lane.", "quantifier": "every network, position and heading", "why_tests_cant": "all networks", "anchors": ["highway_env/road/road.py:RoadNetwork.get_closest_lane_index", "highway_env/road/lane.py:AbstractLane.distance_with_heading"]}
{"id": "C22", "title": "Following the road always yields an existing lane", "statement": "next_lane returns the index of an existing lane whenever the current index exists, with any route and random draw: either the current lane (when the road ends) or a lane that starts where the current one ends; if the number of lanes is unchanged the lane number is kept. It raises KeyError only when the planned route uses an edge that does not exist.", "quantifier": "every network, lane index, route, position and random outcome", "why_tests_cant": "all networks and random outcomes", "anchors": ["highway_env/road/road.py:RoadNetwork.next_lane"]}
{"id": "C23", "title": "Planned routes are real shortest paths", "statement": "shortest_path returns a path of the network's graph from start to goal, without repeated nodes, with a minimal number of edges; it returns an empty list exactly when there is no path or start equals goal; the search terminates on every graph, cyclic ones included, whatever order sets are iterated in.", "quantifier": "every graph, start, goal and set-iteration order", "why_tests_cant": "all graphs (cyclic, disconnected) and all hash orders", "anchors": ["highway_env/road/road.py:RoadNetwork.shortest_path", "highway_env/road/road.py:RoadNetwork.bfs_paths"]}
{"id": "C24", "title": "Lane connectivity test means bounded reachability", "statement": "Without a route, is_connected_road(a, b, depth) is True exactly when b's road can be reached from a's road by following at most depth successive segments (same road and direct succession included as documented), and with same_lane exactly when in addition the lane numbers are equal; with any route, same_lane only removes connections and searching deeper never loses one; the recursion always terminates.", "quantifier": "every network, pair of lanes, route, option and depth", "why_tests_cant": "recursion over arbitrary graphs", "anchors": ["highway_env/road/road.py:RoadNetwork.is_connected_road", "highway_env/road/road.py:RoadNetwork.is_same_road", "highway_env/road/road.py:RoadNetwork.is_leading_to_road"]}
{"id": "C25", "title": "Front and rear neighbours are the nearest ones", "statement": "neighbour_vehicles returns as front (rear) vehicle one that is on the queried lane (1 m margin), ahead (behind) or level, and no other on-lane candidate lies strictly between; it never returns the querying vehicle itself or a landmark; it returns nothing exactly when no candidate exists.", "quantifier": "every set of vehicles and objects, any lane", "why_tests_cant": "any number of vehicles in any order, ties included", "anchors": ["highway_env/road/road.py:Road.neighbour_vehicles"]}
{"id": "C26", "title": "Close vehicles are the nearest visible ones, sorted", "statement": "close_vehicles_to returns only other vehicles within the distance, excludes those far behind unless asked, is sorted by distance along the lane, and with count = n > 0 returns the first n; count = 0 does not truncate.", "quantifier": "every road, vehicle and parameter choice", "why_tests_cant": "arbitrary number of vehicles", "anchors": ["highway_env/road/road.py:Road.close_vehicles_to"]}
{"id": "C27", "title": "Lane-change commands never leave the road", "statement": "After any sequence of high-level actions on a network whose edges are non-empty, the target lane index of a controlled vehicle is a lane that exists; LANE_LEFT/LANE_RIGHT change the lane number by at most one, never the road, and only to a reachable (in particular not forbidden) lane.", "quantifier": "every network, state and action sequence", "why_tests_cant": "invariant over unbounded action histories", "anchors": ["highway_env/vehicle/controller.py:ControlledVehicle.act"]}
{"id": "C28", "title": "Steering commands are always bounded", "statement": "The steering angle chosen by the lane controller is always within [-pi/3, pi/3] in every state.", "quantifier": "every vehicle state, lane and route", "why_tests_cant": "continuum of states incl. near-zero speed singularities", "anchors": ["highway_env/vehicle/controller.py:ControlledVehicle.steering_control", "highway_env/vehicle/controller.py:ControlledVehicle.act"]}
{"id": "C29", "title": "Speed control converges to the target", "statement": "With constant target speed and the proportional speed controller, the speed error after n steps of duration dt is (1-dt/0.6)^n times the initial one; it tends to 0 and never overshoots for 0<dt<=0.6.", "quantifier": "every initial speed, target, dt, n", "why_tests_cant": "limit statement", "anchors": ["highway_env/vehicle/controller.py:ControlledVehicle.speed_control"]}
{"id": "C30", "title": "Target speeds of the ego vehicle stay on the speed ladder", "statement": "After construction and after any sequence of high-level actions the discrete-action ego vehicle's target speed is one of the SPEED_COUNT equally spaced values in [SPEED_MIN, SPEED_MAX] and its speed index is in range.", "quantifier": "every action sequence, every speed history", "why_tests_cant": "invariant over unbounded histories", "anchors": ["highway_env/vehicle/controller.py:MDPVehicle.act", "highway_env/vehicle/controller.py:MDPVehicle.index_to_speed"]}
{"id": "C31", "title": "Speed/index conversion is a nearest-level rounding", "statement": "index_to_speed and speed_to_index are inverse on the ladder; speed_to_index returns a level at minimal distance from any speed within the range and the nearest end outside.", "quantifier": "every speed and every ladder", "why_tests_cant": "real-valued input, tie handling at midpoints", "anchors": ["highway_env/vehicle/controller.py:MDPVehicle.index_to_speed", "highway_env/vehicle/controller.py:MDPVehicle.speed_to_index"]}
{"id": "C32", "title": "FASTER and SLOWER move exactly one level", "statement": "FASTER (SLOWER) sets the target one level above (below) the level nearest to the current speed, saturating at the ends.", "quantifier": "every state", "why_tests_cant": "all speeds, end levels", "anchors": ["highway_env/vehicle/controller.py:MDPVehicle.act"]}
{"id": "C33", "title": "Trajectory prediction does not disturb the simulation", "statement": "predict_trajectory returns one state per trajectory timestep multiple and leaves the vehicle and the road unchanged.", "quantifier": "every action list, durations and timesteps", "why_tests_cant": "aliasing/mutation for all inputs", "anchors": ["highway_env/vehicle/controller.py:MDPVehicle.predict_trajectory"]}
{"id": "C34", "title": "Car-following acceleration is bounded above", "statement": "The IDM acceleration never exceeds the comfort maximum, with or without a front vehicle, for non-negative speeds, and equals it only at standstill on a free road.", "quantifier": "every ego/front pair with non-negative ego speed", "why_tests_cant": "continuum of states", "anchors": ["highway_env/vehicle/behavior.py:IDMVehicle.acceleration"]}
{"id": "C35", "title": "A leader can only slow you down", "statement": "The IDM acceleration with a front vehicle is at most the acceleration without it; it decreases as the gap closes (positive gaps, non-negative desired gap).", "quantifier": "every ego/front pair", "why_tests_cant": "continuum", "anchors": ["highway_env/vehicle/behavior.py:IDMVehicle.acceleration", "highway_env/vehicle/behavior.py:IDMVehicle.desired_gap"]}
{"id": "C36", "title": "Free-road equilibrium", "statement": "On a free road IDM accelerates below target speed, decelerates above and holds at it; without restriction on speed and target, the sign changes exactly at max(|target|, 0.01 m/s) (the sign of the target is ignored). Linear vehicles with a positive gain accelerate below, decelerate above and hold at their target, whatever the signs.", "quantifier": "every speed and target", "why_tests_cant": "continuum", "anchors": ["highway_env/vehicle/behavior.py:IDMVehicle.acceleration"]}
{"id": "C37", "title": "IDM commands are clipped", "statement": "Accelerations sent by an IDM vehicle are always within [-ACC_MAX, ACC_MAX].", "quantifier": "every state", "why_tests_cant": "continuum of states incl. tiny gaps", "anchors": ["highway_env/vehicle/behavior.py:IDMVehicle.act"]}
{"id": "C38", "title": "Lane changes are not decided more than once per second", "statement": "Between two consecutive lane change decisions of a non-yielding traffic vehicle at least the configured delay passes.", "quantifier": "every history", "why_tests_cant": "timing over unbounded histories", "anchors": ["highway_env/vehicle/behavior.py:IDMVehicle.change_lane_policy", "highway_env/vehicle/behavior.py:IDMVehicle.step"]}
{"id": "C39", "title": "Lane changes are safe for the new follower, and decided exactly by MOBIL", "statement": "MOBIL never approves a lane change that would force the new follower to brake harder than the imposed maximum, and approves none without the minimum jerk gain unless a planned route asks for it. Exactly: a traffic vehicle following its lane, with lane changes enabled and its last decision more than one second old, considers the lane on its left and then (with the target so obtained) the one on its right, and takes each if and only if it can be entered from its position, the new follower need not brake too hard, and either there is no lane asked for by the route and the gain is at least the minimum, or the change goes towards the lane asked for and does not make the vehicle itself brake too hard; otherwise it keeps its lane.", "quantifier": "every configuration of neighbours", "why_tests_cant": "all neighbour configurations", "anchors": ["highway_env/vehicle/behavior.py:IDMVehicle.mobil"]}
{"id": "C40", "title": "Crashed traffic vehicles take no decision", "statement": "A crashed traffic vehicle's act changes nothing.", "quantifier": "every state and action", "why_tests_cant": "all states", "anchors": ["highway_env/vehicle/behavior.py:IDMVehicle.act"]}
{"id": "C41", "title": "Yielding vehicles stop and are released", "statement": "On a regulated road, in each enforcement pass, for each pair of vehicles in conflict (within the predicted horizon) one must yield; a non-ego controlled vehicle that must yield gets target speed 0 and is yielding; a vehicle that was yielding and need not any more is released to its lane's speed limit; nothing else changes, the ego vehicle is never touched; the pass runs every int(1/dt/2) steps.", "quantifier": "every set of vehicles and every history of passes", "why_tests_cant": "all interleavings of conflicts and releases", "anchors": ["highway_env/road/regulation.py:RegulatedRoad.enforce_road_rules"]}
{"id": "C42", "title": "Priority decides who yields", "statement": "respect_priorities returns the vehicle with strictly lower lane priority, and on equal priority the one that sees the other further ahead: for vehicles with the same heading, the one that is behind, whatever the order of the arguments; never do both yield to each other.", "quantifier": "every pair of vehicles", "why_tests_cant": "continuum", "anchors": ["highway_env/road/regulation.py:RegulatedRoad.respect_priorities"]}
{"id": "C43", "title": "One environment step simulates a fixed number of frames", "statement": "Each step runs simulation_frequency // policy_frequency physics frames (fewer only if the episode terminates inside), with the agent's action applied once at the first one; the simulation clock after n non-terminal steps is n times that number.", "quantifier": "every configuration with policy <= simulation frequency, every action sequence", "why_tests_cant": "unbounded number of steps", "anchors": ["highway_env/envs/common/abstract.py:AbstractEnv.step", "highway_env/envs/common/abstract.py:AbstractEnv._simulate"]}
{"id": "C44", "title": "Available actions are legal and always include IDLE", "statement": "get_available_actions is a subset of the action space without duplicates, always contains IDLE, contains LANE_LEFT/RIGHT only when a reachable side lane exists and FASTER/SLOWER only when the speed level can change.", "quantifier": "every state", "why_tests_cant": "all networks and states", "anchors": ["highway_env/envs/common/abstract.py:AbstractEnv.get_available_actions"]}
{"id": "C45", "title": "Unavailable actions behave like IDLE", "statement": "Executing an action that get_available_actions does not offer leaves target lane and target speed as IDLE would. (False in general; holds when the current speed's level is the current level and the vehicle is on its target lane's side.)", "quantifier": "every state", "why_tests_cant": "continuum of states", "anchors": ["highway_env/envs/common/abstract.py:AbstractEnv.get_available_actions", "highway_env/vehicle/controller.py:MDPVehicle.act", "highway_env/vehicle/controller.py:ControlledVehicle.act"]}
{"id": "C46", "title": "Discrete action tables are consistent", "statement": "Every discrete action index maps to a meta-action name, names map back to indexes, and the space size is the table size for each longitudinal/lateral configuration; requesting neither axis is rejected.", "quantifier": "every configuration and index", "why_tests_cant": "finite table; the claim for every configuration and lifted to the environment", "anchors": ["highway_env/envs/common/action.py:DiscreteMetaAction"]}
{"id": "C47", "title": "Continuous actions stay in the documented physical ranges", "statement": "For every input vector the commanded acceleration lies in the acceleration range and the steering in the steering range when clipping is on; endpoints map to endpoints; without both axes the missing command is 0.", "quantifier": "every real input vector and configuration", "why_tests_cant": "continuum of inputs", "anchors": ["highway_env/envs/common/action.py:ContinuousAction"]}
{"id": "C48", "title": "Kinematics observations have a fixed shape", "statement": "For vehicles_count >= 2 the kinematics observation has vehicles_count rows and one column per feature in every state; row 0 is the observing vehicle, the following ones are the nearest vehicles in sight in order of distance (any order if shuffled), absent rows are zero and presence flags count the observed vehicles. For vehicles_count = 1 the number of rows is one plus the number of vehicles in sight.", "quantifier": "every traffic state and configuration", "why_tests_cant": "any number of surrounding vehicles", "anchors": ["highway_env/envs/common/observation.py:KinematicObservation"]}
{"id": "C49", "title": "Normalised observations are within [-1, 1]", "statement": "With normalisation and clipping every entry of the kinematics observation lies in [-1,1], provided each observed feature among x, y, vx, vy, heading has a range; the default ranges cover all but heading, which is returned as it is (so that an observed heading leaves [-1,1]).", "quantifier": "every traffic state", "why_tests_cant": "continuum", "anchors": ["highway_env/envs/common/observation.py:KinematicObservation.normalize_obs"]}
{"id": "C50", "title": "Occupancy grid writes stay in bounds", "statement": "The occupancy grid never raises an index error, has the configured shape, and each non-zero cell comes from a vehicle in (or truncated into) that cell.", "quantifier": "every traffic state and grid", "why_tests_cant": "continuum of positions, rounding", "anchors": ["highway_env/envs/common/observation.py:OccupancyGridObservation"]}
{"id": "C51", "title": "Time-to-collision observation values", "statement": "A time-to-collision grid has one plane per speed level, one row per lane and one cell per time quantum; each cell holds the greatest cost (1 for the centre, 1/2 for 5 m before or after) of the collisions predicted there, 0 if none. The TTC observation is the 3x3 window around the agent's level and lane: lanes that do not exist are 1, levels that do not exist replicate the nearest one (with one level only, it has 2 planes instead of 3). No exception is raised for the first agent; for an agent on another road a lane overflow raises.", "quantifier": "every traffic state", "why_tests_cant": "continuum of states", "anchors": ["highway_env/envs/common/observation.py:TimeToCollisionObservation", "highway_env/envs/common/finite_mdp.py:compute_ttc_grid"]}
{"id": "C52", "title": "The finite MDP is well formed", "statement": "The states of the finite MDP abstraction are numbered one-to-one by (speed, lane, time); every transition leads to a valid state, time advances by one until the horizon, the lane changes by one at any time and the speed level at the first time step only; every action sequence as long as the horizon ends in a terminal state; rewards and terminal states are those of the grid.", "quantifier": "every grid size, state and action", "why_tests_cant": "all grid sizes", "anchors": ["highway_env/envs/common/finite_mdp.py:transition_model", "highway_env/envs/common/finite_mdp.py:finite_mdp"]}
{"id": "C53", "title": "Highway reward is normalised", "statement": "The highway reward lies in [0,1] in every state, is 0-offset for off-road, increases with lane index and with forward speed, and a crash strictly lowers it for equal lane and speed.", "quantifier": "every state, number of lanes >= 2", "why_tests_cant": "continuum of states", "anchors": ["highway_env/envs/highway_env.py:HighwayEnv._reward"]}
{"id": "C54", "title": "Highway termination", "statement": "A highway episode ends exactly when the ego crashed or the step count reached the duration (or off-road when configured); it ends after at most duration steps.", "quantifier": "every action sequence", "why_tests_cant": "unbounded histories", "anchors": ["highway_env/envs/highway_env.py:HighwayEnv._is_terminal"]}
{"id": "C55", "title": "Merge reward is normalised", "statement": "The merge reward lies in [0,1]. (False of the code: witness.)", "quantifier": "every state and action", "why_tests_cant": "continuum", "anchors": ["highway_env/envs/merge_env.py:MergeEnv._reward"]}
{"id": "C56", "title": "Roundabout reward, termination and episodes", "statement": "From a reset with any seed, any sequence of meta-actions is played in the roundabout without exception; each reward is the documented score (−1 crash, +0.2 relative speed level, −0.05 for actions 0 and 2, mapped affinely) of the state reached and lies in [0,1] (at most 0.2 after a crash, at least 0.8 before); the episode terminates exactly on a crash or after the configured number of decisions. (With continuous actions on both axes the reward raises ValueError: proved.)", "quantifier": "every seed, action sequence, playable configuration and iteration order of Python sets", "why_tests_cant": "continuum", "anchors": ["highway_env/envs/roundabout_env.py:RoundaboutEnv._reward", "highway_env/envs/roundabout_env.py:RoundaboutEnv._is_terminal", "highway_env/envs/roundabout_env.py:RoundaboutEnv._make_vehicles"]}
{"id": "C57", "title": "Two-way reward and cost", "statement": "While the ego vehicle is on the road a-b the two-way reward lies in [0,1] and is 0.8 times its relative speed level plus 0.2 when it aims at the left lane; the cost is 1 for a crash plus 1/15 in the left (oncoming) lane and 0 exactly when unharmed in the right lane; the episode terminates exactly on a crash. Every reset gives the documented scene, and any sequence of actions ending before the ego can have reached the end of the road (25 decisions by default; the registered episode has 15) is played without exception. (In every state is false of the code: beyond the end of the road the ego turns onto the road b-a, where computing the reward raises ZeroDivisionError: proved.)", "quantifier": "every state, seed, action sequence and configuration with meta-actions", "why_tests_cant": "continuum", "anchors": ["highway_env/envs/two_way_env.py:TwoWayEnv._reward", "highway_env/envs/two_way_env.py:TwoWayEnv._cost", "highway_env/envs/two_way_env.py:TwoWayEnv._is_terminal", "highway_env/envs/two_way_env.py:TwoWayEnv._make_road", "highway_env/envs/two_way_env.py:TwoWayEnv._make_vehicles"]}
{"id": "C58", "title": "Intersection reward and termination", "statement": "The reward of an intersection agent is the arrived reward once it has arrived (even if it has crashed), otherwise the sum of the collision reward if it has crashed and of the high-speed reward if it is at its highest speed level; with several agents the reward is the mean. Unless normalised it lies between the collision reward and 1, normalised in [0,1]. The episode ends exactly when one agent has crashed, all have arrived or the time is over, and the per-agent rewards and done flags in info are those of the same state.", "quantifier": "every state, any number of controlled vehicles", "why_tests_cant": "all states and agent counts", "anchors": ["highway_env/envs/intersection_env.py:IntersectionEnv._reward", "highway_env/envs/intersection_env.py:IntersectionEnv._is_terminal"]}
{"id": "C59", "title": "Intersection traffic management", "statement": "Clearing removes exactly the uncontrolled vehicles near the end of an exit lane (or without route) and never a controlled vehicle; spawning never places a vehicle within 15 m of another; every spawned route exists.", "quantifier": "every traffic state and random draw", "why_tests_cant": "all random outcomes", "anchors": ["highway_env/envs/intersection_env.py:IntersectionEnv._clear_vehicles", "highway_env/envs/intersection_env.py:IntersectionEnv._spawn_vehicle"]}
{"id": "C60", "title": "Parking reward is a distance", "statement": "The parking reward is never positive, is 0 exactly at the goal (on the weighted features), and success is a threshold on it; a state closer in every weighted feature has a reward at least as large.", "quantifier": "every pair of achieved and desired goals", "why_tests_cant": "continuum", "anchors": ["highway_env/envs/parking_env.py:ParkingEnv.compute_reward"]}
{"id": "C61", "title": "Environment roads are well formed", "statement": "In every built-in road network every lane lookup used by the traffic succeeds, lanes chain end-to-start, and every route planned at reset exists.", "quantifier": "every built-in environment and configuration size", "why_tests_cant": "quantifies over number of lanes and lengths", "anchors": ["highway_env/road/road.py:RoadNetwork.straight_road_network", "highway_env/envs/merge_env.py", "highway_env/envs/roundabout_env.py", "highway_env/envs/intersection_env.py", "highway_env/envs/two_way_env.py"]}
{"id": "C62", "title": "What a reset changes in other environments", "statement": "Resetting an environment changes nothing for vehicles of other environments of the process, except: a roundabout reset replaces the speed ladder of all discrete-action vehicles (so that an identical second reset, or a highway ego vehicle built later, aims at other speeds), and an intersection reset replaces the wanted gap and the comfortable accelerations of its traffic class everywhere (IDM vehicles elsewhere start at 6 instead of 3 m/s2). Nothing else is touched, and a repeated reset changes nothing more.", "quantifier": "every sequence of environment creations", "why_tests_cant": "histories across environments", "anchors": ["highway_env/envs/roundabout_env.py:RoundaboutEnv._make_vehicles", "highway_env/envs/intersection_env.py:IntersectionEnv._make_vehicles"]}
{"id": "C63", "title": "Interval arithmetic encloses", "statement": "Products of intervals (numbers, scalar products, matrix-vector products, scaled matrices) contain every product of members; differences, scalings, negative parts and projections of boxes are exactly the range of the values; converting a box of positions to and from the coordinates of a straight lane gives exactly the ranges of both coordinates. On circular lanes the conversion does not enclose. One Euler step of an integrator with uncertain gain stays within the stepped interval.", "quantifier": "every interval and every point in it", "why_tests_cant": "continuum", "anchors": ["highway_env/interval.py:intervals_product", "highway_env/interval.py:intervals_diff", "highway_env/interval.py:intervals_scaling", "highway_env/interval.py:interval_negative_part"]}
{"id": "C64", "title": "Polytopic enclosure", "statement": "For a matrix that depends affinely on parameters, the matrices obtained for a box of parameters are exactly the nominal matrix plus the convex combinations of the returned deviations.", "quantifier": "every polytope", "why_tests_cant": "continuum", "anchors": ["highway_env/interval.py:polytope"]}
{"id": "C65", "title": "LPV interval predictor is sound", "statement": "For an uncertain linear system, the interval predicted after any number of steps, converted back to the original coordinates, contains every evolution of the system (any matrix of the polytope and admissible disturbance at each step), when the closed-loop matrix has non-negative off-diagonal entries and the time step does not overshoot, or without coordinate frame around the origin, or in a diagonalising frame if disturbances enter through the rotated matrix. The longitudinal and lateral predictors of an interval vehicle enclose the positions, speeds and lane-relative headings of all drivers in the parameter box. (With a rotated frame and the original disturbance matrix the inclusion fails: witness.)", "quantifier": "every trajectory of the uncertain system", "why_tests_cant": "all disturbance sequences", "anchors": ["highway_env/interval.py:LPV.step_interval_predictor", "highway_env/interval.py:LPV.step_naive_predictor"]}
{"id": "C66", "title": "Interval vehicle heading enclosure", "statement": "One step of the interval observer: if the state, the parameters and the front vehicle lie in their intervals (positive speeds, headings in [-pi, 3pi/2], straight target lane, gains not overshot), the position, speed and heading after one step of the linear driver with bounded noise lie in the stepped interval. The default 'partial' step, which propagates only the corners, does not enclose (witness).", "quantifier": "every trajectory", "why_tests_cant": "continuum", "anchors": ["highway_env/vehicle/uncertainty/prediction.py:IntervalVehicle.observer_step"]}
{"id": "C67", "title": "Simplifying an environment copy keeps the ego and drops only far traffic", "statement": "env.simplify() returns a copy with the ego and exactly the vehicles within the perception window; the original is unchanged.", "quantifier": "every state", "why_tests_cant": "all states", "anchors": ["highway_env/envs/common/abstract.py:AbstractEnv.simplify"]}
{"id": "C68", "title": "Changing one kind of vehicles leaves the ego untouched", "statement": "Environment transformation helpers (change_vehicles, set_preferred_lane, set_route_at_intersection, set_vehicle_field, randomize_behaviour) only modify the other vehicles. (False for set_vehicle_field.)", "quantifier": "every state", "why_tests_cant": "all states", "anchors": ["highway_env/envs/common/abstract.py:AbstractEnv.set_vehicle_field", "highway_env/envs/common/abstract.py:AbstractEnv.change_vehicles"]}
{"id": "C69", "title": "Multi-agent actions and observations are componentwise", "statement": "With several agents each gets exactly its own action and its own observation, in order, and spaces are the product.", "quantifier": "any number of agents and inner configuration", "why_tests_cant": "any number of agents", "anchors": ["highway_env/envs/common/action.py:MultiAgentAction", "highway_env/envs/common/observation.py:MultiAgentObservation"]}
{"id": "C70", "title": "Bicycle model bounds", "statement": "The dynamical bicycle vehicle turns by at most 2*pi*dt per step and executes steering within a quarter turn; driving straight without steering it keeps driving straight, for any number of steps (false when reversing at 1 m/s or more).", "quantifier": "every state and action sequence", "why_tests_cant": "unbounded histories", "anchors": ["highway_env/vehicle/dynamics.py:BicycleVehicle"]}
{"id": "C71", "title": "Building a network adds exactly the lanes asked for", "statement": "RoadNetwork.add_lane appends the lane to the named road with the next free lane number, creates the road if it did not exist, and changes no other road or lane number; networks built this way never contain a node without road nor a road without lane.", "quantifier": "every network and every sequence of additions", "why_tests_cant": "all networks", "anchors": ["highway_env/road/road.py:RoadNetwork.add_lane"]}
{"id": "C72", "title": "Deciding does not move anything", "statement": "vehicle.act(action), for every class of vehicle and every action, never changes the vehicle's position, heading, speed, lane, crash flag or history; Road.act changes no vehicle's position, heading, speed or crash flag and no object.", "quantifier": "all vehicles, classes, actions, roads", "why_tests_cant": "ranges over all states and over every path through the lane change and routing logic", "anchors": ["highway_env/vehicle/controller.py ControlledVehicle.act", "highway_env/vehicle/behavior.py IDMVehicle.act", "highway_env/road/road.py Road.act"]}
{"id": "C73", "title": "Objects placed on a lane", "statement": "Obstacle.make_on_lane and Landmark.make_on_lane produce an unhit object at the asked lane position, with heading 0 and with the lane's heading angle as its speed (the heading is passed in the place of the speed); hence the object is aligned with its lane and motionless exactly where the lane's heading is 0.", "quantifier": "all lanes and longitudinal positions", "why_tests_cant": "holds for the lanes of heading 0 used in tests, fails elsewhere", "anchors": ["highway_env/road/objects.py RoadObject.make_on_lane"]}
{"id": "C74", "title": "The recorded history is the last 30 states", "statement": "With history recording, after each step a vehicle's history starts with its current state, followed by the previous history, and never exceeds 30 entries. In a running simulation the d-th record of a vehicle is where it was d frames ago; after any episode of the highway, merge, two-way, roundabout and parking environments every vehicle on the road has min(30, frames since reset) records if show_trajectories is configured and none otherwise.", "quantifier": "all vehicles, command sequences and episodes of any length, configurations, seeds", "why_tests_cant": "unbounded sequences of steps", "anchors": ["highway_env/vehicle/kinematics.py Vehicle.on_state_update"]}
{"id": "C75", "title": "Simulation never raises on healthy roads", "statement": "On a road built with add_lane whose vehicles sit on existing lanes with existing routes, where linear traffic is not mixed with obstacles or uncontrolled vehicles, and whose regulated pass has precise routes, no history of vehicle.act(action), Road.act() and Road.step(dt) ever raises an exception; each condition is necessary for the linear models and for the regulation period.", "quantifier": "all networks, all vehicle lists, all finite histories of actions and steps, all durations (dt <= 1/2 on regulated roads)", "why_tests_cant": "absence of exceptions must hold for every reachable state of an unbounded simulation", "anchors": ["highway_env/road/road.py: Road.act, Road.step", "highway_env/road/regulation.py", "highway_env/vehicle/behavior.py", "highway_env/vehicle/controller.py"]}
{"id": "C76", "title": "A centred vehicle stays centred", "statement": "A controlled vehicle on the centre line of a straight lane, aligned with it and without steering, stays exactly on the centre line and aligned, for any number of IDLE steps.", "quantifier": "all straight lanes, speeds, time steps, numbers of steps", "why_tests_cant": "unbounded number of steps, all lane orientations", "anchors": ["highway_env/vehicle/controller.py: ControlledVehicle.steering_control", "highway_env/vehicle/kinematics.py: Vehicle.step"]}
{"id": "C77", "title": "Traffic speed envelope", "statement": "Over any number of frames of simulation (external commands, road.act, road.step) on a road without priority regulation, with frame duration dt at most 1/2, an IDM vehicle that starts no faster than a positive target speed v0 with 4*a*dt <= v0 (a its maximum acceleration) and is not crashed never exceeds v0 while its target speed is unchanged; in contrast its speed has no lower bound at 0: braking behind a leader can make it drive backwards.", "quantifier": "all networks, traffic, numbers of frames, external commands", "why_tests_cant": "unbounded simulations with arbitrary traffic", "anchors": ["highway_env/vehicle/behavior.py: IDMVehicle.acceleration, IDMVehicle.act", "highway_env/vehicle/kinematics.py: Vehicle.step"]}
{"id": "C78", "title": "Environments never raise", "statement": "From any ready state (healthy road, controlled vehicles of the class the action type prescribes, frame duration accepted by the road), env.step with any action of the action space succeeds and leaves a ready state, provided the environment's own reward, termination and cost methods raise nothing on ready states; hence action sequences of any length can be played.", "quantifier": "every ready state, every action of the space, every sequence of actions of any length, every random stream", "why_tests_cant": "Ranges over unboundedly long action sequences and all traffic configurations.", "anchors": ["highway_env/envs/common/abstract.py:AbstractEnv.step", "highway_env/envs/common/abstract.py:AbstractEnv._simulate", "highway_env/envs/common/action.py:ContinuousAction.act", "highway_env/envs/common/action.py:DiscreteMetaAction.act", "highway_env/envs/common/action.py:MultiAgentAction.act"]}
{"id": "C79", "title": "Random vehicle creation", "statement": "Creating a vehicle at random on a road made of parallel straight lanes raises nothing, puts it on the centre of one of the lanes (the requested one if given), at the lane's heading, with the requested speed or one drawn within the limits of the class, and ahead of every vehicle already on the road by at least 0.9 of the density-dependent gap; adding any number of random vehicles keeps this for all pairs.", "quantifier": "all lane counts, lengths, spacings, speeds, numbers of vehicles, random streams", "why_tests_cant": "all random streams and any number of vehicles", "anchors": ["highway_env/vehicle/kinematics.py:Vehicle.create_random", "highway_env/envs/highway_env.py:HighwayEnv._create_vehicles"]}
{"id": "C80", "title": "Highway scenes are playable", "statement": "Resetting the highway environment raises nothing and gives a road with the configured lanes, the configured number of vehicles, agents of the class demanded by the action type, no one crashed, pairwise longitudinal distance large enough that no two bodies touch under the default gaps; from then on every sequence of actions of the space is played without an exception.", "quantifier": "every valid configuration, random stream and action sequence", "why_tests_cant": "all random streams and unbounded action sequences", "anchors": ["highway_env/envs/highway_env.py:HighwayEnv._reset", "highway_env/envs/highway_env.py:HighwayEnv._create_road", "highway_env/envs/highway_env.py:HighwayEnv._create_vehicles", "highway_env/envs/common/abstract.py:AbstractEnv.reset", "highway_env/envs/common/abstract.py:AbstractEnv.step"]}
{"id": "C81", "title": "Vehicles created on a lane", "statement": "Creating a vehicle of any class on an existing lane raises nothing and puts it on the centre line at the requested distance, aligned with the lane there, at the requested speed or the speed limit, attached to the closest lane of the network and aiming at it.", "quantifier": "all networks, lanes, distances, speeds, classes", "why_tests_cant": "continuum of lanes and distances", "anchors": ["highway_env/vehicle/kinematics.py:Vehicle.make_on_lane"]}
{"id": "C82", "title": "Route planning", "statement": "Planning a route to any destination never raises and changes only the route, which starts with the current lane and continues with the roads of a shortest path of the network (only the current lane if there is no path or nothing to do); the route is connected, uses existing roads and ends at the destination.", "quantifier": "all networks, vehicles, destinations, set iteration orders", "why_tests_cant": "all graphs", "anchors": ["highway_env/vehicle/controller.py:ControlledVehicle.plan_route_to", "highway_env/road/road.py:RoadNetwork.shortest_path"]}
{"id": "C83", "title": "Choosing a branch at the next intersection", "statement": "set_route_at_intersection never raises and changes only the route: it is cut after the first of its first three elements that leads to at least two roads and continued by the road number `choice` modulo the number of roads; without such an element it is unchanged; routes of existing roads stay so.", "quantifier": "all networks, routes, integer or random choices, random streams", "why_tests_cant": "all graphs and routes", "anchors": ["highway_env/vehicle/controller.py:ControlledVehicle.set_route_at_intersection", "highway_env/vehicle/controller.py:ControlledVehicle.get_routes_at_intersection"]}
{"id": "C84", "title": "Aborting a lane change", "statement": "A traffic vehicle in the middle of a lane change returns to its current lane exactly when another controlled vehicle, ahead and closer than the desired gap, is also changing into the target lane; otherwise it keeps its target.", "quantifier": "all traffic states", "why_tests_cant": "any number of vehicles, continuum of positions and speeds", "anchors": ["highway_env/vehicle/behavior.py:IDMVehicle.change_lane_policy"]}
{"id": "C85", "title": "Goal observations are the scaled features of vehicle and goal", "statement": "A goal observation consists of the vehicle's features divided by the scales, given both as observation and achieved goal, and the goal's features divided by the same scales, each with one entry per feature.", "quantifier": "every vehicle, goal, feature list and list of scales", "why_tests_cant": "continuum of states", "anchors": ["highway_env/envs/common/observation.py:KinematicsGoalObservation"]}
{"id": "C86", "title": "Image stacks hold the last frames", "statement": "After any number of image observations the stack has its initial size and holds the most recent frames, oldest first.", "quantifier": "every number of observations and stack size", "why_tests_cant": "unbounded histories", "anchors": ["highway_env/envs/common/observation.py:GrayscaleObservation"]}
{"id": "C87", "title": "Lane-following vehicles never turn around", "statement": "On a map whose lanes all point within e < 45 degrees of a direction, every vehicle controlled by high-level actions or by a non-linear traffic model that starts heading within 45 degrees + e of that direction stays so for ever, whatever the commands, speeds, collisions and regulation (frames of at most 1/5 s); heading within 45 degrees, it progresses along the road by a positive share of the distance driven. The highway and merge maps are such maps.", "quantifier": "every such map, traffic, sequence of commands and number of frames", "why_tests_cant": "unbounded histories and a continuum of states", "anchors": ["highway_env/vehicle/controller.py:ControlledVehicle.steering_control", "highway_env/vehicle/kinematics.py:Vehicle.step"]}
{"id": "C88", "title": "Summon episodes", "statement": "From a reset with any seed and at most as many cars as spots, any sequence of continuous actions can be played in the summon environment without an exception; the agent starts at rest in the last spot, the other cars are parked in the middle of distinct spots or drive in the alleys; every reward is minus the root of the weighted distance to the goal, minus 5 after a crash; and the episode ends exactly on crash, success or time limit. With more cars than spots the reset can raise IndexError; with 15 cars another car can stand on top of the agent although the reset means to clear 20 m around it; two cars of the traffic can start overlapping.", "quantifier": "every seed, configuration with continuous actions, and action sequence", "why_tests_cant": "all seeds and unbounded action sequences", "anchors": ["highway_env/envs/summon_env.py:SummonEnv"]}
{"id": "C89", "title": "Lane-keeping task: motion, observation, reward and episode bookkeeping", "statement": "In the lane-keeping environment, once reset, any sequence of steering decisions can be played without an exception: the vehicle makes the Euler steps of the single-track model at a constant 8.3 m/s with the ordered wheel angle; the observed state is the state before the motion, up to the configured noise, with its derivative and the reference of the tracked lane; the reward is one minus the squared lateral offset divided by the squared lane width, after the motion; the tracked lane changes once, from the straight lane to the sine lane, at the first decision taken off the straight lane; the episode never ends. The trajectory is never cleared by a reset, a step before the first reset raises AttributeError, and on the straight lane the reference ordinate is biased.", "quantifier": "all steering-only configurations with a bicycle vehicle, all noise levels and random streams, all sequences of decisions of any length and values, all previous episodes", "why_tests_cant": "Continuous actions, random noise and histories of any length over several resets; a test follows one trajectory.", "anchors": ["highway_env/envs/lane_keeping_env.py:LaneKeepingEnv", "highway_env/vehicle/dynamics.py:BicycleVehicle", "highway_env/envs/common/action.py:ContinuousAction"]}
{"id": "C90", "title": "The linear lateral model is the linearisation of the bicycle dynamics", "statement": "derivative_linear of a BicycleVehicle and the matrices returned by lateral_lpv_dynamics and full_lateral_lpv_dynamics are the first-order expansion of derivative around straight driving.", "quantifier": "all states and speeds of a bicycle vehicle, all steering angles", "why_tests_cant": "A derivative is a limit over all small perturbations; finite differences at a few states with loose tolerances hide a factor on one entry.", "anchors": ["highway_env/vehicle/dynamics.py:BicycleVehicle.derivative_linear", "highway_env/vehicle/dynamics.py:BicycleVehicle.lateral_lpv_structure", "highway_env/vehicle/dynamics.py:BicycleVehicle.full_lateral_lpv_structure"]}
{"id": "C91", "title": "Yaw of a bicycle vehicle driven straight is damped", "statement": "A BicycleVehicle driven with straight wheels at constant speed does not amplify its yaw rate when its speed is at least 1 m/s and 2250/37 times the simulation period (4.05 m/s at 15 Hz), for any number of steps and any lateral speed; below that speed the simulation is unstable: any non-zero yaw rate, however small, grows past a fixed bound.", "quantifier": "all networks, simulation periods, speeds from 1 to 15 m/s, lateral speeds, yaw rates and numbers of steps", "why_tests_cant": "A stability threshold quantifies over all initial perturbations and unbounded horizons.", "anchors": ["highway_env/vehicle/dynamics.py:BicycleVehicle.step", "highway_env/vehicle/dynamics.py:BicycleVehicle.derivative"]}
{"id": "C92", "title": "Parameter regression on exact data", "statement": "The regression of the parameters of a linear vehicle from its recorded features and outputs: the estimate is the unique minimiser of the regularised squared error; the Gramian is always invertible and the radius well defined; if the outputs are exactly theta . phi for a bounded theta, then theta is in the confidence ellipsoid and the dataset is reported consistent; hence what a linear vehicle records about itself is consistent with any box that contains its parameters; every vertex of the confidence polytope lies in the parameter box. (That the polytope contains the true parameter is false in the code.)", "quantifier": "all datasets of any size and dimension, all parameter boxes, all correct eigenvalue routines, all histories of recording", "why_tests_cant": "ranges over all datasets of unbounded size and all real features; tests sample a few", "anchors": ["highway_env/utils.py: confidence_ellipsoid, confidence_polytope, is_valid_observation, is_consistent_dataset", "highway_env/vehicle/behavior.py: LinearVehicle.collect_data, add_features", "highway_env/vehicle/uncertainty/estimation.py: RegressionVehicle"]}
{"id": "C93", "title": "Hypotheses of a vehicle with several possible routes", "statement": "A vehicle that maintains several possible routes: considering the routes at the next intersection makes every one of them a hypothesis and forgets none (same record, same or extended route, same first lane); the rejection keeps exactly the hypotheses with no record or a consistent one and does not raise if the routes differ; while the vehicle follows a lane, a hypothesis that has it on this lane and is exactly explained by its parameters is never rejected; assuming a model valid takes the given index clamped to the last. (That the true route is never rejected is false in the code: the observation made when passing the end of a lane pairs the features of the next lane with the steering along the previous one.)", "quantifier": "all networks, hypotheses, records, all runs with any number of actions, all correct eigenvalue routines", "why_tests_cant": "depends on all histories of recording and on all networks; no test of the project covers this class", "anchors": ["highway_env/vehicle/uncertainty/estimation.py: MultipleModelVehicle"]}
{"id": "C94", "title": "Interval vehicles as objects", "statement": "A vehicle that carries an interval (IntervalVehicle): its collision check against the controlled vehicle is worst-case with respect to its position — for vehicles aligned with the axes it reports a collision exactly if some position of the interval would collide — and changes the speeds like an ordinary crash; every successful step stores exactly one position and one interval; a new vehicle knows its state exactly; the lanes it considers are the target lane and the side lanes the lane-change model allows; when the target lane changes to a parallel lane, the predictor holds for possible exactly the same states as before, expressed along the new lane. (The worst-case check misses oblique collisions and heading uncertainty, ignores disabled collisions; without data the vehicle cannot act; the interval of a crashed vehicle lags one step; recentring on a lane of another heading turns the relative heading the wrong way, and does not shift the abscissa of the front vehicle.)", "quantifier": "all vehicles, intervals, networks, numbers of steps, all straight lanes, all correct eigenvalue routines", "why_tests_cant": "a worst case over an uncountable set of positions; invariants over runs of any length", "anchors": ["highway_env/vehicle/uncertainty/prediction.py: IntervalVehicle"]}
{"id": "C95", "title": "Traffic following on a lane never runs into the vehicle ahead", "statement": "On a road consisting of one straight lane, take a queue of IDM traffic vehicles with the default parameters behind a first vehicle of any class (an ego vehicle receiving arbitrary commands, a slow or braking car), each driving at most at its target speed of at most 30 m/s and starting at least the safe braking distance behind the vehicle ahead. As long as the first vehicle drives along the lane braking at most at 6 m/s2 and no vehicle with a follower reverses or gets more than 5 m beyond the lane ends (where followers no longer see it), then at every frame of every simulation with steps of at most 0.1 s all vehicles keep the safe distance, remain more than one vehicle length apart in their order, and nobody crashes. For two traffic vehicles alone on a lane long enough, nothing about their motion has to be assumed.", "quantifier": "every number of vehicles, every initial state with safe gaps, every command sequence to the first vehicle, every number of frames, every step duration up to 0.1 s", "why_tests_cant": "Safety of a closed-loop car-following law over unbounded platoons, all speeds and all horizons is an invariant argument (a discrete barrier function); tests only sample trajectories.", "anchors": ["highway_env/vehicle/behavior.py:IDMVehicle.act", "highway_env/vehicle/behavior.py:IDMVehicle.acceleration", "highway_env/vehicle/behavior.py:IDMVehicle.desired_gap", "highway_env/road/road.py:Road.neighbour_vehicles", "highway_env/road/road.py:Road.step", "highway_env/vehicle/kinematics.py:Vehicle.check_collision"]}
{"id": "C96", "title": "What render() shows is the current scene", "statement": "Every call to render leaves the window, and every image returned by render('rgb_array') or by an image observation, showing the scene as it is at that moment. Proved: always, for programs that never use the window mode, whatever happens at the keyboard; in either mode, for the loop render / step / render. Refuted otherwise: in window mode only the first step after a render is drawn, so render, step, step, render shows the scene after the first step; a reset is not shown by the next render nor by the image observation it returns; closing and rendering again gives a blank window.", "quantifier": "every configuration, environment class, sequence of render/step/reset/close calls, keyboard input and state", "why_tests_cant": "depends on the whole history of calls (which mode was used, how many steps since the last render), not on one call", "anchors": ["highway_env/envs/common/abstract.py:render", "highway_env/envs/common/abstract.py:_automatic_rendering", "highway_env/envs/common/abstract.py:_simulate", "highway_env/envs/common/graphics.py:EnvViewer.display", "highway_env/envs/common/graphics.py:EnvViewer.get_image", "highway_env/envs/common/observation.py:GrayscaleObservation"]}
{"id": "C97", "title": "Rendering does not disturb the simulation; closing the window ends it", "statement": "When nobody touches the keyboard or everything is off screen, a program that renders in any modes at any times, with or without image observations and rendering callbacks, gets the same step results, the same exceptions and the same simulation as without its render calls. Closing the window closes the environment; an image being asked for then raises AttributeError, a step being rendered in window mode ends with the frame being drawn, and each later step simulates exactly one frame until reset.", "quantifier": "every configuration, environment class, sequence of operations and action", "why_tests_cant": "equality of two programs over all call sequences", "anchors": ["highway_env/envs/common/abstract.py:render", "highway_env/envs/common/abstract.py:close", "highway_env/envs/common/abstract.py:_simulate", "highway_env/envs/common/graphics.py:EnvViewer.handle_events"]}
{"id": "C98", "title": "Driving with the keyboard", "statement": "In manual control the actions passed to step are ignored. For an agent with meta-actions an arrow key does exactly what choosing the action it stands for does, and all other events, including arrows of an axis that is not controlled, do nothing (refuted for the up arrow, which raises KeyError when lane changes are disabled). For a continuous agent, after any batch of events the throttle and steering are those left by the last presses and releases on each axis, the ego vehicle is told exactly these, nothing else changes and nothing is raised. Reading events never moves a vehicle nor the clock, and multi-agent environments ignore the keyboard.", "quantifier": "every configuration, state and sequence of events", "why_tests_cant": "ranges over all event sequences and states", "anchors": ["highway_env/envs/common/graphics.py:EventHandler", "highway_env/envs/common/graphics.py:EnvViewer.handle_events", "highway_env/envs/common/action.py:ContinuousAction.act", "highway_env/envs/common/abstract.py:_simulate"]}
{"id": "C99", "title": "The picture shows things where they are", "statement": "Every world point is drawn less than one pixel from its exact position and no two points are swapped; after the window is moved to a vehicle that vehicle is drawn at the configured fraction of the surface whatever the zoom; the zoom depends only on how often the zoom keys were pressed and never vanishes. A vehicle whose body reaches into the frame is drawn (as long as half its diagonal spans less than 50 pixels; past that zoom it can be skipped), centred on its position with the orientation of its heading. Lane markings are drawn only on the lane, striped markings are fixed on the road (the first 3 m of every 5 m) however the camera moves, and every marked point of a straight or sine lane inside the frame is drawn, except possibly in the last 1.5 m of the lane (a 101 m lane always misses its last metre). A vehicle without a colour of its own is red exactly when crashed, and the history trail shows the states the frequencies prescribe, raising exactly when the simulation frequency is below 3.", "quantifier": "every camera origin, positive zoom, surface size and centering; every point, vehicle pose, image size and angle; every lane, marking and longitudinal position; every sequence of keyboard events; every history and simulation frequency", "why_tests_cant": "image tests compare a few frames; rounding towards zero, culling margins and clipping at lane ends involve all real positions, zooms and angles", "anchors": ["highway_env/road/graphics.py: WorldSurface.pix, pos2pix, is_visible, move_display_window_to, handle_event; LaneGraphics.display, striped_line, continuous_curve, continuous_line, draw_stripes; RoadObjectGraphics.get_color", "highway_env/vehicle/graphics.py: VehicleGraphics.display, blit_rotate, display_history, get_color"]}
{"id": "C100", "title": "Observations belong to the declared observation space", "statement": "Once an environment has declared its observation space (define_spaces, at reset), every observation it returns - from the reset and from any number of later steps, on any scenes - belongs to that space: same shape, entries within the bounds, one component per agent, same dictionary keys. This holds for normalised and clipped kinematics observations of at least two vehicles, for occupancy grids, for time-to-collision grids on roads where they are defined, for goal and attribute observations, and for several agents. It is false of the code for image observations (the declared bounds are [0, 1], the values go to 255), for kinematics observations of a single vehicle (more rows than declared) and for kinematics observations without normalisation (declared within [-1, 1]).", "quantifier": "all configurations of observation types, all scenes shown in any order and number, all random generators, any number of agents", "why_tests_cant": "A space membership test samples a few scenes; the claim is about every scene of every episode, and about observers whose internal state (ranges, grids, stacks of images) changes from one observation to the next.", "anchors": ["highway_env/envs/common/observation.py: ObservationType.space, observe (all classes)", "highway_env/envs/common/abstract.py: AbstractEnv.define_spaces, reset"]}
{"id": "C101", "title": "Configuration and factories", "statement": "configure(u) changes exactly the entries of u; of several successive configurations the last one that mentions an entry wins. The observation and action configurations build exactly the documented types: a missing type raises KeyError, an unknown one ValueError, a missing mandatory entry its exception, no controlled axis ValueError. With several agents there is one observer and one agent per controlled vehicle, in order, each bound to its own vehicle. After a reset the spaces and agents belong to the new scene whatever the old one was, the reset returns whenever the new scene can be observed, its observation belongs to the declared space, and every action of the declared action space is one that step accepts.", "quantifier": "all configurations, all sequences of configurations, all scenes before and after the reset, any number of controlled vehicles", "why_tests_cant": "Configurations and numbers of agents are unbounded, and the spaces are defined three times (at construction, before and after the scene is made) on different scenes.", "anchors": ["highway_env/envs/common/abstract.py: configure, define_spaces, reset, __init__", "highway_env/envs/common/observation.py: observation_factory, MultiAgentObservation", "highway_env/envs/common/action.py: action_factory, MultiAgentAction"]}
{"id": "C102", "title": "Observing does not disturb the game, and reset/step honour the gym contract", "statement": "`step` with any observation type that does not shuffle does to the environment, and returns (reward, terminal flag, info), exactly what it would do without observing, together with an observation of the state that the reward is computed on; the choice of observation types never changes an episode; a shuffled observation changes the state of the random generator and nothing else. Looking twice at the same state gives the same observation. Default feature ranges are frozen at the first look. Whenever the observers can be relied upon in the states of the environment, `reset` returns an observation of the declared observation space and then any sequence of actions of the declared action space, of any length, can be played, every step returning an observation of the declared observation space; this is the case of the highway environment with normalised kinematics (one agent or several), whose rewards are moreover in [0, 1].", "quantifier": "all environment classes, observation types, actions, seeds, scenes and episodes of any length", "why_tests_cant": "it quantifies over all pairs of observation types and all sequences of actions: an observer that consumes a random number or touches a vehicle shows only in a long divergent episode", "anchors": ["highway_env/envs/common/abstract.py:AbstractEnv.reset", "highway_env/envs/common/abstract.py:AbstractEnv.step", "highway_env/envs/common/observation.py:ObservationType.observe"]}
{"id": "C103", "title": "Goal environments: the goals shown are those rewarded", "statement": "In the parking and summon environments, whenever `step` returns, its observation shows each agent the goals it has achieved and desires in the state reached; `compute_reward` applied to those shown goals gives the agents' rewards, whose sum is the reward returned; `is_success` lists exactly the agents whose reward is above -0.12; the episode ends exactly when all agents succeed, the duration has elapsed or an agent has crashed. In the parking environment the reward can be recomputed from the goals alone (hindsight relabelling). `reset` then any sequence of actions of the declared action space never raises, and every observation is in the declared dictionary space.", "quantifier": "all configurations with continuous actions, one or several agents, seeds, goals, actions and episodes of any length", "why_tests_cant": "the observation is computed three times per step (returned, reward, terminal): that the three agree, for every state, is what hindsight replay relies on and no finite set of episodes can establish it", "anchors": ["highway_env/envs/parking_env.py:ParkingEnv.step", "highway_env/envs/parking_env.py:ParkingEnv._reward", "highway_env/envs/parking_env.py:ParkingEnv._is_terminal", "highway_env/envs/summon_env.py:SummonEnv.compute_reward", "highway_env/envs/common/observation.py:KinematicsGoalObservation.observe"]}
{"id": "C104", "title": "Merge, roundabout, intersection, two-way (and highway) are gym environments with their default observations and with occupancy grids", "statement": "With their default observation configuration (times to collision for merge and two-way, kinematics for roundabout and intersection, one kinematics observer per agent for the multi-agent intersection), or with any normalised kinematics or relative occupancy-grid configuration, reset returns an observation of the declared observation space whatever the seed and whatever was there before; and then any sequence of actions of the declared action space can be played by step: it never raises, every observation is in the declared observation space, and reward and terminal are those of the environment for the state reached. (Two-way: during the time in which the vehicle cannot have reached the end of the road.)", "quantifier": "all configurations of the environments with which an episode can be played, all good observation configurations, all seeds, all previous states, all sequences of actions of any length", "why_tests_cant": "ranges over all seeds, configurations and unbounded action sequences, composing map, traffic, controllers and observers", "anchors": ["highway_env/envs/common/abstract.py:AbstractEnv.reset", "highway_env/envs/common/abstract.py:AbstractEnv.step", "highway_env/envs/common/observation.py", "highway_env/envs/merge_env.py", "highway_env/envs/roundabout_env.py", "highway_env/envs/intersection_env.py", "highway_env/envs/two_way_env.py"]}
{"id": "C105", "title": "Multi-agent intersection: one reward and one end per agent, fairly shared", "statement": "Each step of the intersection reports in `info` one reward and one `done` per controlled vehicle, in their order: the reward is that vehicle's own score (as it was when the joint reward was computed, although they are computed after vehicles have been removed and spawned) and it is done exactly when it has crashed, has arrived or the time is over. The joint reward is the mean of the agents' rewards; if all agents are done the episode is over; if the episode is over some agent is done. `MultiAgentWrapper` returns these tuples in place of the joint reward and done and changes nothing else; after a reset that removed no agent, any sequence of joint actions of the declared space can be played through it. Wrapping an environment that does not report them raises KeyError at each step.", "quantifier": "all configurations with which the intersection can be played, numbers of agents, seeds, joint action sequences of any length", "why_tests_cant": "the agents' information is computed after the traffic update: that no agent is altered, dropped or reordered in between has to hold in every reachable state", "anchors": ["highway_env/envs/common/abstract.py:MultiAgentWrapper.step", "highway_env/envs/intersection_env.py:IntersectionEnv.step", "highway_env/envs/intersection_env.py:IntersectionEnv._agent_reward", "highway_env/envs/intersection_env.py:IntersectionEnv._agent_is_terminal"]}
{"id": "C106", "title": "Calling a vehicle method on a copy of the environment", "statement": "`call_vehicle_method((\"plan_route_to\", (destination,)))` never raises: on the returned copy every lane-following vehicle has a shortest route to the destination (its own lane when there is none), nothing else of it changes, the other vehicles and the rest of the environment are untouched and all vehicles are still on the road in the same order. With a method that returns nothing (`follow_road`, `set_route_at_intersection`, `randomize_behavior`) exactly the vehicles that have the method are replaced by `None` on the copied road; the others are unchanged.", "quantifier": "all environments, road networks, set orders, destinations and methods", "why_tests_cant": "the test calls one method with one destination on one scene; which vehicles survive depends on the method and the classes of all vehicles", "anchors": ["highway_env/envs/common/abstract.py:AbstractEnv.call_vehicle_method", "highway_env/vehicle/controller.py:ControlledVehicle.plan_route_to"]}
{"id": "C107", "title": "Recovering from a stop, and the maximum speed behind a vehicle", "statement": "`recover_from_stop` tells a vehicle stopped on the wrong lane with free room behind to reverse, and leaves the acceleration of any other vehicle unchanged; `maximum_speed` returns the target speed when there is no vehicle in front and otherwise a speed from which the vehicle can brake. (False of the code: for a vehicle stopped on the wrong lane the first always raises TypeError, and with a vehicle in front the second always ends in RecursionError.)", "quantifier": "all roads, vehicles, accelerations, recursion limits", "why_tests_cant": "no test calls them; that they fail on every input of the interesting kind is a universal statement", "anchors": ["highway_env/vehicle/behavior.py:IDMVehicle.recover_from_stop", "highway_env/vehicle/behavior.py:IDMVehicle.maximum_speed"]}
{"id": "C108", "title": "The steering controller converges to the target lane and completes lane changes", "statement": "A controlled or discrete-action vehicle at a steady speed V between 10 and 40 m/s, whose target lane is straight and not continued by another road, stepped by its own controller with frames of at most 0.1 s: with y its lateral offset and p its heading relative to the lane, if E = 5(y/V)^2 + 2(y/V)p + p^2 is at most 0.36 then after any number n of frames E has been multiplied by at most (1-dt)^n, with unchanged speed and target lane; hence y and p converge to 0 (an aligned vehicle never gets farther than 1.12 times its initial offset). The same holds with the factor (1-dt/5)^n while the speed is still converging to the target speed, both within 10 to 40 m/s and the target between 4/5 and 8/5 of the speed. In particular, on a straight road with any number of 4 m lanes, a LANE_LEFT / LANE_RIGHT command given at 15 m/s or more from the centre of a lane towards an existing lane is always completed: after m frames the vehicle is within sqrt(20 (1-dt)^m) metres of the new centre line, and as soon as (1-dt)^m < 1/5 (24 frames at 15 Hz) its recorded lane index is the new lane.", "quantifier": "every straight lane, network, speed in the range, frame length up to 0.1 s, initial offset and heading in the region, number of frames", "why_tests_cant": "A test steps one vehicle at one speed from one offset for a fixed number of frames; convergence is a statement about every initial state, speed, time step and unbounded horizon of a nonlinear loop with four saturations.", "anchors": ["highway_env/vehicle/controller.py:ControlledVehicle.act, steering_control", "highway_env/vehicle/kinematics.py:Vehicle.step, on_state_update", "highway_env/road/road.py:RoadNetwork.get_closest_lane_index"]}
{"id": "C109", "title": "Moving the whole world does not change the simulation", "statement": "Displace every lane of the network, every vehicle (with its recorded history) and every road object by the same vector t. Then any number of frames with any commands and any time step produce in the displaced world exactly the states of the original one displaced by t: same speeds, headings, lane indices, targets, decisions, crash flags, random draws, and the same exceptions. Vehicle construction commutes with the displacement except for the lane-change timer, which the code seeds from the absolute position ((sum(position) * pi) % 1), so that two identical scenes built at different places can differ in when traffic first considers changing lane; with an explicit timer it commutes entirely.", "quantifier": "every road (any network, regulated or not, any vehicles and objects), every displacement, every command sequence of any length, every time step", "why_tests_cant": "A test compares two placements of one scene; the claim is a symmetry of the whole simulator for all scenes, displacements and histories.", "anchors": ["highway_env/road/road.py:Road.act, Road.step", "highway_env/road/lane.py:all lane classes", "highway_env/vehicle/behavior.py:IDMVehicle.__init__, act", "highway_env/vehicle/kinematics.py:Vehicle.step, check_collision", "highway_env/road/regulation.py:RegulatedRoad"]}
{"id": "C110", "title": "Traffic settles at its target speed, and a balanced queue stays balanced", "statement": "A traffic vehicle (IDMVehicle) that receives no external command, does not crash and has nobody ahead of it on its lane, on a road without regulation: if it drives below its target speed it never slows down, never exceeds the target, and the missing speed shrinks at least geometrically; if it drives above, it slows down geometrically to the target without going below it; the linear classes approach the target from either side without crossing it. A vehicle alone on a road satisfies this for ever. In a queue of such vehicles on a lane, all at one speed, where each distance balances the acceleration (v/v0)^4 + ((10+1.5v)/d)^2 = 1, all speeds and all distances stay exactly the same for as long as the first vehicle keeps its speed, and nobody crashes.", "quantifier": "all road networks, all other vehicles and what they do, all speeds in the model's range, all target speeds, all frame durations short enough for the target speed, all numbers of frames; all queue lengths", "why_tests_cant": "Convergence and absence of overshoot are statements about every number of frames and every initial speed; a test shows one trajectory.", "anchors": ["highway_env/vehicle/behavior.py: IDMVehicle.act, acceleration, desired_gap; LinearVehicle.acceleration", "highway_env/road/road.py: Road.act, Road.step, neighbour_vehicles", "highway_env/vehicle/kinematics.py: Vehicle.step"]}
{"id": "C111", "title": "Positions along a route and constant-speed predictions", "statement": "The position reported at a given distance along a route lies on exactly one lane of the route, the one that contains the distance once the lengths of the previous lanes are subtracted (the last lane is prolonged), at the requested lateral offset and with that lane's heading. Along a route whose lanes start where the previous one ends, the reported centre positions form a continuous path, moving at most one metre per metre on straight and circular lanes (a bounded factor on sine lanes); hence predicted trajectories at constant speed never move faster than the vehicle's speed. Straight roads built at an angle consist of the requested number of parallel lanes, 4 m apart, of the requested length, all in the direction opposite to the angle.", "quantifier": "all networks, routes, distances, lateral offsets, vehicles, prediction times, numbers of lanes, lengths and angles", "why_tests_cant": "Continuity and the correct choice of lane at every distance are statements over the reals and all route lengths.", "anchors": ["highway_env/road/road.py: RoadNetwork.position_heading_along_route, straight_road_network, next_lane, is_connected_road", "highway_env/vehicle/controller.py: ControlledVehicle.predict_trajectory_constant_speed", "highway_env/utils.py: point_in_ellipse"]}
{"id": "C112", "title": "No collisions on parallel lanes", "statement": "On a road made of parallel straight lanes (the highway; the right lane and the oncoming lane of the two-way road), possibly with standing obstacles in the middle of lanes, traffic vehicles that do not change lanes, together with agents that drive along their own lanes, brake at most at 6 m/s2 and keep the safe distance behind the vehicles and before the obstacles ahead of them on their lanes, never crash and hit no obstacle: if all distances are safe at the beginning and vehicles with somebody or an obstacle behind do not reverse, every vehicle keeps the safe distance to everybody and every obstacle ahead of it on its lane, and neighbouring lanes never interfere. For traffic alone this holds from any such initial state for as long as nobody could have come to a stop (speed / 6 seconds) or reached the end of the road. A traffic vehicle that is alone on its lane, at a safe distance before an obstacle, never hits it, without any bound on time.", "quantifier": "all road networks with parallel lanes, numbers of vehicles, obstacles and landmarks, placements, speeds, commands to the agents, frame durations up to 0.1 s and numbers of frames", "why_tests_cant": "It concerns every arrangement of any number of vehicles and arbitrarily long runs.", "anchors": ["highway_env/vehicle/behavior.py: IDMVehicle.act, acceleration, desired_gap", "highway_env/road/road.py: Road.act, Road.step, neighbour_vehicles", "highway_env/vehicle/kinematics.py: check_collision", "highway_env/envs/two_way_env.py: _make_road, _make_vehicles"]}
{"id": "C113", "title": "A journey: following the route, and the time of arrival", "statement": "On roads laid end to end along a straight line, possibly with other roads leaving the line at the junctions, a vehicle with a route along these roads (or without a route, when nothing else leaves them) that keeps its lane stays exactly on the line and aligned with it, is at every moment found on the road at its place, and heads for every road of its route in turn, switching near the junctions. A traffic vehicle with nobody ahead, at u m/s with target speed T >= u and comfort acceleration acc, reaches a point at distance D not earlier than D/T seconds and not later than D/T + (T-u)/acc seconds (rounded up to a frame), without ever crashing when alone.", "quantifier": "all maps, chains of any number of roads of any lengths above a vehicle length, directions, starting points, speeds, frame durations and numbers of frames", "why_tests_cant": "It concerns every map, every route length and arbitrarily long runs.", "anchors": ["highway_env/vehicle/controller.py: ControlledVehicle.follow_road, steering_control", "highway_env/road/road.py: RoadNetwork.next_lane, get_closest_lane_index", "highway_env/vehicle/behavior.py: IDMVehicle.act, acceleration", "highway_env/vehicle/kinematics.py: Vehicle.step, on_state_update"]}
{"id": "C114", "title": "Traffic does not see beyond the end of its road", "statement": "The front vehicle a traffic vehicle reacts to is looked for on its current lane only (up to 5 m past its end). Consequently the safe-distance guarantee on one lane does not extend across junctions: on roads laid end to end, a traffic vehicle at its target speed T that approaches a vehicle standing d >= 5 m beyond a junction, with d at most the braking distance T^2/12, drives at full speed up to the junction and crashes into it, however far ahead and in line the standing vehicle has been.", "quantifier": "all maps, chains of roads, starting points, speeds, distances beyond the junction up to the braking distance, frame durations", "why_tests_cant": "It holds for every map, distance and speed; a test shows one crash.", "anchors": ["highway_env/road/road.py: Road.neighbour_vehicles", "highway_env/vehicle/behavior.py: IDMVehicle.act", "highway_env/road/lane.py: AbstractLane.on_lane", "highway_env/vehicle/kinematics.py: check_collision"]}
{"id": "C115", "title": "Where the seed matters", "statement": "The random generator only matters at reset and at forks of the road map. On a map on which at most one road leaves each node (highway, merge, two-way road, parking lots) everything after the reset is decided by the state and the actions: replacing the generator by any other one changes no reward, end, information or exception of any later step, however long the episode. In the merge environment the reset draws nothing either, so the seed has no effect at all. At a fork, a vehicle without a route can be sent to every road that leaves the node, depending on the generator.", "quantifier": "every environment state on a map without forks, every pair of generators, every sequence of actions of any length, every action type and observation-independent reward; for forks, every well-formed map, vehicle without a route and outgoing road", "why_tests_cant": "A test compares a few seeds over a few steps; the claim is about all generators, all states and episodes of any length", "anchors": ["highway_env/road/road.py:RoadNetwork.next_lane", "highway_env/vehicle/controller.py:ControlledVehicle.follow_road", "highway_env/envs/common/abstract.py:AbstractEnv.step", "highway_env/envs/merge_env.py:MergeEnv._make_vehicles"]}
{"id": "C116", "title": "One press, one level", "statement": "With discrete meta-actions, the reported speed tells how often FASTER and SLOWER were pressed. If the time step and the decision period let a speed error shrink to a fifth within one decision (as the defaults do), then after every decision of an episode that is not over the speed in the info dictionary is within a quarter of the distance between two levels of the level obtained by counting the presses from the initial level, saturating at both ends, whatever lane changes are ordered in between and whatever the other vehicles do. In highway-v0 the count starts from 25 m/s on the levels 20, 25, 30; in merge-v0 and two-way-v0 from 30 m/s; in roundabout-v0 from 8 m/s on 0, 8, 16 for every episode after the first reset.", "quantifier": "every class-level ladder of at least two levels within [-40, 40] m/s, every environment class without post-step hook, every state whose ego is near a level, every sequence of actions of any length as long as the episode is not over, every seed and traffic", "why_tests_cant": "The claim couples a counter to a continuous speed over episodes of any length and any interleaving of commands; a test sees a few sequences, and the rounding of the current speed to a level could go wrong after any particular history", "anchors": ["highway_env/vehicle/controller.py:MDPVehicle.act", "highway_env/vehicle/controller.py:MDPVehicle.speed_to_index", "highway_env/vehicle/controller.py:MDPVehicle.index_to_speed", "highway_env/vehicle/controller.py:ControlledVehicle.speed_control", "highway_env/envs/common/abstract.py:AbstractEnv._simulate"]}
{"id": "C117", "title": "Traffic that keeps its lane looks only ahead", "statement": "On a map without forks, without regulation and static objects, vehicles behind have no influence on vehicles ahead. Take two simulations, of any length, that start with the same first m vehicles, whose traffic has lane changes disabled (enable_lane_change = False, as in two-way-v0), and give these vehicles the same commands; the number, kinds, positions and speeds of the other vehicles, the commands they receive and the random numbers may differ. As long as none of the first m vehicles has one of the others ahead of it on its lane and none of them collides, the first m vehicles are equal in every respect (position, speed, heading, action, target lane, history) in both simulations after every frame. In particular a vehicle that is followed at a safe distance on a single lane drives exactly as if it were alone.", "quantifier": "every pair of roads on every fork-free map, every number of vehicles, every kind and command of the other vehicles, every random numbers, every number of frames and time step", "why_tests_cant": "Independence of everything behind is a statement about pairs of executions and all traffic that could be there; a test compares two particular scenes", "anchors": ["highway_env/vehicle/behavior.py:IDMVehicle.act", "highway_env/vehicle/behavior.py:IDMVehicle.acceleration", "highway_env/road/road.py:Road.neighbour_vehicles", "highway_env/road/road.py:Road.act", "highway_env/road/road.py:Road.step"]}
{"id": "C118", "title": "Actions of several agents are simultaneous", "statement": "When the environment executes the tuple of actions of several agents, each agent's vehicle ends up exactly as if it had acted alone on the scene at the beginning of the frame, and everything else on the road is untouched; giving the same actions to the same agents in another order succeeds whenever the original order does and gives the same scene, up to the state of the random generator, provided no agent has to draw its next road at random (it is driven by steering and acceleration, or it has not reached the end of its lane, or at most one road continues, or its route tells which one). On maps without forks the whole frame, with the decisions of the traffic and the motion, is independent of the order of the agents. At a fork without a route the order matters: exchanging two agents exchanges the roads they draw.", "quantifier": "every road, every list of distinct agents, every tuple of actions, every reordering, every state of the generator", "why_tests_cant": "Tests execute one joint action in the order of the list of agents; the claim compares all orders, and each agent acting alone, for all scenes and actions.", "anchors": ["highway_env/envs/common/action.py:MultiAgentAction.act", "highway_env/vehicle/controller.py:MDPVehicle.act", "highway_env/vehicle/controller.py:ControlledVehicle.follow_road", "highway_env/road/road.py:RoadNetwork.next_lane"]}
{"id": "C119", "title": "Turning the whole world by 90\u00b0 does not change the simulation", "statement": "If a scene is simulated for any number of frames with any commands, then the scene turned by 90\u00b0 around the origin (lanes, vehicles, objects and recorded states), given the same commands and the same random generator, goes through exactly the turned states: same decisions, lane changes, yields, crashes, speeds, lanes and draws, positions turned and headings increased by \u03c0/2 \u2014 provided nothing on the road stands at the exact centre of a circular lane or on a network with a lane of length 0. On roads without circular lanes this needs no condition on the run; otherwise it suffices that vehicles are further from the centres than they move in a frame. It is false for other angles: two vehicles in line 4 m apart collide when they head along an axis, and are not reported when the same pair heads at 45\u00b0. Whole episodes of the highway and two-way environments, after any reset, give the same list of rewards, termination flags, costs, speeds and crash flags in the turned world; on roads without circles the observed vehicles and their order are the same, kinematics rows turn (positions, velocities, directions), and the time-to-collision grid and the finite MDP are identical. The roundabout environment is direction-free as well: on roads with circular lanes decisions and episodes give the same results provided everything has a place along the lanes all along, which holds when vehicles are further from the centres than they can move in a decision. The merge environment (it ends beyond x = 370) and the parking environment (its reward weighs the two axes differently) are exceptions.", "quantifier": "every road network of straight, sinusoidal and circular lanes, every scene, every traffic model, every sequence of commands, every number of frames, every state of the generator", "why_tests_cant": "Tests run scenes in one orientation; the claim compares every scene, over its whole evolution, with its turned copy.", "anchors": ["highway_env/road/lane.py:AbstractLane.local_coordinates", "highway_env/utils.py:rotated_rectangles_intersect", "highway_env/utils.py:point_in_rotated_rectangle", "highway_env/road/road.py:Road.step", "highway_env/road/regulation.py:RegulatedRoad.enforce_road_rules", "highway_env/vehicle/behavior.py:IDMVehicle.act", "highway_env/envs/common/abstract.py:AbstractEnv.step", "highway_env/envs/common/observation.py:KinematicObservation.observe", "highway_env/envs/common/finite_mdp.py:compute_ttc_grid"]}
{"id": "C120", "title": "Episodes and observations do not depend on where the world is", "statement": "In the highway, two-way, roundabout, parking and summon environments, displacing the whole scene by any vector changes nothing an agent receives: the same actions give the same rewards, termination flags, speeds, crash flags and costs at every step of the episode, and the same exceptions. The kinematics observation with absolute off is the same in all rows but the first, whose x and y alone may differ (by the displacement, if not normalised); the time-to-collision grid, the finite Markov decision process and the occupancy grid are the same. Whole plays, observation included, are identical when the observer shows no absolute position. It is false of the merge environment, which ends when the ego vehicle is beyond the absolute abscissa 370 (displacements across the road, which do not change that abscissa, change nothing there either). In the lane-keeping environment the same holds but for the ordinates shown in the observation, which are increased by the displacement. In the intersection environment it holds for the displacements (a, b) with pi (a + b) an integer, for instance along the diagonal, and is false of others: vehicles entering take their lane-change clock from their absolute position.", "quantifier": "every displacement, every state of the environment, every sequence of actions of any length, every configuration of the observers with relative coordinates", "why_tests_cant": "Tests run the scenes where reset puts them; the claim compares every state and every episode with its displaced copy.", "anchors": ["highway_env/envs/common/abstract.py:AbstractEnv.step", "highway_env/envs/common/observation.py:KinematicObservation.observe", "highway_env/envs/common/observation.py:OccupancyGridObservation.observe", "highway_env/envs/common/finite_mdp.py:compute_ttc_grid", "highway_env/envs/highway_env.py:HighwayEnv._reward", "highway_env/envs/parking_env.py:ParkingEnv.compute_reward", "highway_env/envs/merge_env.py:MergeEnv._is_terminal", "highway_env/envs/intersection_env.py:IntersectionEnv._spawn_vehicle", "highway_env/vehicle/behavior.py:IDMVehicle.__init__", "highway_env/envs/lane_keeping_env.py:LaneKeepingEnv.step", "highway_env/envs/summon_env.py:SummonEnv.compute_reward"]}
{"id": "C121", "title": "Driving in a mirror", "statement": "Left and right are alike: reflect the whole scene (road network, vehicles, objects) in an axis, give the agents the same decisions and accelerations and the opposite steering, and after any number of frames the scene is the reflection of what it would have been: the same speeds, lanes, targets, lane changes, crashes, yields and random draws, and reflected positions, headings, steering angles and histories. (Lanes keep their numbers, so that \"left\" goes on meaning the lane numbered one less.) This holds without condition on the run for vehicles driven by commands on straight and sinusoidal lanes, and for agents and IDM traffic on roads whose lanes all point within less than 45 degrees of one direction, such as the highway and merge environments from any reset; and in general frame by frame as long as no vehicle is opposite the start of a circular lane and no vehicle with a lane controller faces exactly backwards. It fails for: a vehicle opposite the start of a circular lane (or at its centre), whose longitudinal coordinate differs by a whole turn in the mirror; and a vehicle with a lane-keeping controller facing exactly backwards, which turns to the same side in the world and in its mirror.", "quantifier": "every network, every road with vehicles of any class but the dynamic bicycle, any objects, regulated or not, every sequence of commands for every frame, every frame duration (at most 1/5 s where the conditions concern the first state only), every seed and configuration of the highway and merge environments without dynamic bicycles and linear-model vehicles", "why_tests_cant": "a relation between two infinite families of runs; a test can compare only finitely many scenes with their mirror images", "anchors": ["highway_env/vehicle/kinematics.py:Vehicle.step", "highway_env/vehicle/kinematics.py:Vehicle.handle_collisions", "highway_env/road/lane.py:StraightLane", "highway_env/road/lane.py:SineLane", "highway_env/road/lane.py:CircularLane", "highway_env/road/road.py:Road.step", "highway_env/utils.py:are_polygons_intersecting", "highway_env/vehicle/controller.py:ControlledVehicle.steering_control", "highway_env/vehicle/behavior.py:IDMVehicle.act", "highway_env/road/regulation.py:RegulatedRoad.enforce_road_rules"]}
{"id": "C122", "title": "An agent in the mirrored scene sees the mirrored observation", "statement": "Reflect a scene in the axis of abscissas (lanes keep their names, vehicles are reflected and steer to the other side). The kinematics observation of an agent \u2014 any features, absolute or relative, with or without normalisation, clipping, shuffling, intentions and vehicles behind \u2014 then consists of the same rows in the same order, with exactly the sideways features (y, vy, heading, sin_h, sin_d) negated and all others unchanged; the goal observation is negated likewise in its three parts; the time-to-collision grid and the finite MDP built from the scene are identical; the same exceptions are raised and the same random numbers consumed. Normalisation requires the ranges of sideways features to be centred on 0, which the default ranges are.", "quantifier": "for all roads, networks, vehicles, egos, feature lists, observation options with centred ranges, generators and horizons, as long as no vehicle is exactly opposite the start of the ego's circular lane", "why_tests_cant": "A test compares one scene with its reflection; a feature with the wrong sign, an uncentred default range, a distance that depends on the side, or a tie broken by the side shows up only for some scenes, options and lane geometries.", "anchors": ["highway_env/envs/common/observation.py: KinematicObservation.observe, normalize_obs, KinematicsGoalObservation.observe, TimeToCollisionObservation.observe", "highway_env/vehicle/kinematics.py: Vehicle.to_dict, Vehicle.destination_direction, Vehicle.velocity", "highway_env/road/road.py: Road.close_vehicles_to", "highway_env/envs/common/finite_mdp.py: compute_ttc_grid, finite_mdp", "highway_env/vehicle/objects.py: RoadObject.to_dict, RoadObject.lane_distance_to"]}
{"id": "C123", "title": "Episodes in a mirror: the mirrored actions give the same rewards", "statement": "Reflect the world of an environment in the axis of abscissas, and play the same actions with the steering reversed (meta actions keep their index, since lanes keep their numbers). On roads whose lanes are straight or sinusoidal and point within less than 45\u00b0 of one direction, with frames of at most 1/5 s, every decision returns the same reward, termination flag, speed, crash flag and cost, and the resulting state is the reflected one \u2014 hence whole episodes of the highway and merge environments, after any reset, with driver-model or command-driven vehicles, one agent or several, give the same list of results in the mirror. So do parking episodes, on lanes in all directions and with frames of any length, as long as the vehicles are driven by commands only. Continuous agents must have a steering range centred on 0, as the default one is.", "quantifier": "for all configurations satisfying the environments' conditions, random streams, action types with even steering, action sequences of any length, and any environment class that does not tell left from right", "why_tests_cant": "A test compares one episode with its reflection; a reward, a terminal condition, a clipping or a scaling of actions that treats the sides differently shows up only in some states and for some configurations.", "anchors": ["highway_env/envs/common/abstract.py: AbstractEnv.step, _simulate", "highway_env/envs/common/action.py: ContinuousAction.act, DiscreteMetaAction.act, MultiAgentAction.act", "highway_env/envs/highway_env.py: HighwayEnv._reward, _is_terminal, _cost", "highway_env/envs/merge_env.py: MergeEnv._reward, _is_terminal", "highway_env/envs/two_way_env.py: TwoWayEnv._reward, _is_terminal", "highway_env/envs/parking_env.py: ParkingEnv._reward, _is_terminal, compute_reward, _is_success"]}
{"id": "C124", "title": "A dynamic bicycle moves alike on both sides, unless it reverses straight", "statement": "A step of a BicycleVehicle reflected in the axis of abscissas, with the opposite steering, lateral speed and yaw rate, is the reflection of its step: same speed and lane, reflected position, heading and lateral motion, for any command, duration and road whose lanes have an image of the place it reaches. This holds whenever its speed is above -1 m/s, and in reverse when both axles slide sideways. It fails, for every duration, when the vehicle reverses straight at 1 m/s or more: the tire angles are then half a turn, and the vehicle is thrown to one fixed side at 45 pi m/s^2 at least, whatever its steering. Hence no bicycle can back out: from rest, under a constant backward command, it goes straight for some steps and is then thrown sideways.", "quantifier": "for all states of dynamic bicycles (crashed or not), all commands, all durations, all road networks", "why_tests_cant": "Tests drive the vehicle forwards along a few trajectories; a sign that depends on the side, or the branch cut of arctan2 at negative speeds, shows only for some states.", "anchors": ["highway_env/vehicle/dynamics.py: BicycleVehicle.step, derivative, clip_actions", "highway_env/vehicle/kinematics.py: Vehicle.clip_actions, on_state_update"]}
