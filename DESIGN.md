# A machine-checked model of highway-env in Lean 4

## Layout

* `lean/Verif/Model/*.lean` – the model: shallow, function by function, every definition cites the file and lines of
  `/repo` it models and states its simplifications.  Exceptions are values (`Except PyErr`).
* `lean/Verif/Spec/*.lean` – small, independent specifications (point sets, graph paths, tables...) used in statements.
* `lean/Verif/Lemmas/*.lean` – helper lemmas.
* `lean/Verif/Props/*.lean` – the property theorems, each with a non-vacuity `example` beside it.
* `MANIFEST.json` – property → theorems.  `seeded/LOG.jsonl` – mutation experiments on the model.

## Modelling decisions

* Python/numpy floats are exact reals (Mathlib's `Real`); Python ints are `Int`/`Nat`; node names are `String`.
  Rounding, overflow, NaN and infinities of IEEE arithmetic are outside the model.
* `np.round` is round-half-to-even, `int()` truncates toward zero, `//` and `%` are floor division/modulo,
  `np.clip(x,a,b) = min(max(x,a),b)`, `np.arctan2(y,x) = Complex.arg (x+iy)`.
* Python truthiness (`if route and ...`, `x or y`, `if count`) is modelled as written, including the cases where 0 is falsy.
* Python negative list indices are modelled in lane lookup.
* Randomness is an arbitrary oracle stream, so theorems hold for every seed and every draw. The iteration order of Python sets in
  the breadth-first search is an arbitrary oracle.
* Mutable class attributes overwritten by environments (`MDPVehicle.SPEED_*`, `IDMVehicle.DISTANCE_WANTED`, ...) are an
  explicit `Globals` parameter.
* Object identity is a `uid` field; vehicle lists are lists of records and in-place mutation is list update.

## Trusted base

* Lean 4.33.0 kernel; Mathlib's definitions of `Real`, `Real.sin/cos/tan/arcsin/arctan/exp/sqrt`, `Complex.arg`.
* Axioms: each property theorem depends at most on `propext`, `Classical.choice`, `Quot.sound` (checked with `#print axioms`
  through `vcheck`); no axiom is added.
* The reading of the Python source (the model is hand written; the code is not run).

## Which parts of the code are modelled

Everything below is under `/repo/highway_env`; each definition of the model cites the lines it stands for.

| file | modelled in `Model/` | not modelled |
|---|---|---|
| `utils.py` | `Utils` (`do_every`, `lmap`, `not_zero`, `wrap_to_pi`, rectangles), `Regression` (`confidence_ellipsoid`, `confidence_polytope`, `is_valid_observation`, `is_consistent_dataset`) | `class_from_path` (the class named by a configuration is a value of `VKind`); `constrain` (never called) |
| `interval.py` | `Interval` (interval and polytope products, `LPV`), with `np.linalg.eig` an oracle assumed to return an eigenbasis | – |
| `types.py` | – | type aliases only |
| `road/lane.py` | `Lane` (straight, sine and circular lanes, all queries) | `line_types` as geometry (they only matter for drawing: see `Drawing`); the abstract method stubs |
| `road/road.py` | `Network` (all of `RoadNetwork`), `Road`, `Step` (all of `Road`) | `__repr__` |
| `road/objects.py` | `Vehicle`, `Road` (obstacles, landmarks, `make_on_lane`) | `__str__`, `__repr__` |
| `road/regulation.py` | `Step` (all of `RegulatedRoad`) | – |
| `road/graphics.py` | `Drawing`, `Camera`, `Rendering` (coordinates, clipping, stripes, screen, sampling of circles) | the pixels painted by pygame |
| `vehicle/kinematics.py` | `Vehicle`, `Create` (construction, motion, collisions, history, observation dictionary) | `__str__`, `__repr__` |
| `vehicle/controller.py` | `Controller` (all of `ControlledVehicle` and `MDPVehicle`) | – |
| `vehicle/behavior.py` | `Behavior`, `Recover` (`recover_from_stop`, `maximum_speed`), `Regression` (`collect_data`, features, parameter ranges), `Env` (`randomize_behavior`) | – |
| `vehicle/dynamics.py` | `Vehicle` (bicycle motion), `BicycleLpv` (lateral LPV model, `full_lateral_lpv_*`) | the script part: `simulate`, `plot`, `main` |
| `vehicle/graphics.py` | `Drawing`, `Rendering` (what is drawn where, with which colour class; `display_history`, trajectories; keyboard events) | the pixels |
| `vehicle/uncertainty/estimation.py` | `MultiModel`, `Regression` | – |
| `vehicle/uncertainty/prediction.py` | `Prediction`, `IntervalVehicle` | – |
| `envs/common/abstract.py` | `Env` (stepping, copies and their transformations), `Recover` (`call_vehicle_method`), `Full` (observer included), `Factory` (configuration, `define_spaces`, `reset`), `Rendering` (`render`, `close`), `Wrapper` (`MultiAgentWrapper`) | `seed` (the generator is an arbitrary oracle); `to_finite_mdp` is the function of `FiniteMdp` |
| `envs/common/action.py` | `Action`, `Factory` | – |
| `envs/common/observation.py` | `Observation`, `Occupancy`, `Spaces`, `Full` | the grey-scale image itself (an arbitrary array of the declared shape) |
| `envs/common/finite_mdp.py` | `FiniteMdp` | the `MDP` object of `finite_mdp`, an external package |
| `envs/common/graphics.py` | `Camera`, `Rendering` | pygame itself: windows, fonts, event queue (its content is an input) |
| `envs/*_env.py` | `Envs/*`, `GoalEnv`, `Wrapper` | `register(...)` calls (`max_episode_steps` belongs to gym) |
| `scripts/`, `tests/`, `docs/`, notebooks | – | everything |

Known gaps between the model and a run of the code, besides floating point:

* A controlled vehicle is looked up on the road by identity.  The code keeps a reference to it, so that a vehicle removed from the road (a
  fifth agent of the intersection starting on the lane of the first; other agents after `simplify`) could still be read although it no longer
  moves; the model then reports an exception.  Every theorem about an environment assumes or proves that its agents are on the road
  (`Manned`); `inter_four` proves it for up to four agents.
* Divisions by zero of numpy scalars (which give inf or nan with a warning) are not modelled; where the operands are Python numbers
  `ZeroDivisionError` is.  `lmap` on a range of width zero is outside the modelled domain.
* Broadcasting of one-element arrays in `compute_reward` and in the scales of a goal observation, and non-default values of wrong Python types in
  configurations, are not modelled.
* The state after an exception in the middle of a simulation frame is not tracked (except for rendering, where the frame is dropped).
* `np.linalg.eig`, the order of iteration of Python sets, the random generator, the event queue of pygame and the pictures are parameters.

## Plan per property

| id | property | what is modelled and how it is proved |
|---|---|---|
| C01 | Angle wrapping is canonical | Model `wrap_to_pi` with Python's floor modulo on reals; prove range, congruence, uniqueness, idempotence. |
| C02 | Linear remapping is the affine map between two ranges | Model `lmap`; algebra over a field plus monotonicity. |
| C03 | Denominators are never zero | Model `not_zero` branch by branch; case analysis. |
| C04 | Rectangle collision test is symmetric | Model the nine sample points and the rotated-rectangle membership test; symmetry from commutativity of `or`. |
| C05 | Collision test is exact for vehicles aligned with the road | Spec: closed rectangles as point sets. Prove test = (sets meet) for angle 0 and equal sizes. |
| C06 | Collision test is exact for rotated rectangles | Prove the exact set decided by the code (membership in the rectangle at the *opposite* angle); negation with concrete witnesses (false positive, false negative); partial exactness for angles that are multiples of pi. |
| C07 | The cheap distance pre-check never hides a collision | Bound the distance of any of the nine points from the centre by the half diagonal; conclude distance <= 2*half diagonal < 5. |
| C08 | Crashes are permanent | Invariant over `Road.step`, `Road.act` and `env.step` models (monotone crashed flags), lifted to any sequence. |
| C09 | Every collision between two vehicles crashes both | Loop model of the pairwise pass with in-place updates on a list; loop invariant relating flags to the (constant) pairwise relation. |
| C10 | A collision never speeds up a vehicle | Same loop invariant on |speed|. |
| C11 | A crashed vehicle coasts to a stop in a straight line | Induction on the number of steps of `clip_actions; step`. |
| C12 | Forward speed stays in an envelope | Invariant by induction on steps; negation witness for the reverse direction. |
| C13 | One step moves a vehicle by speed*dt | Norm computation on the model of `Vehicle.step`. |
| C14 | The motion model does not depend on where the world's origin or axes are | Equivariance under planar rigid motions by trigonometric addition formulas. |
| C15 | Constant-action straight driving has the exact discrete closed form | Induction on n. |
| C16 | Straight lanes: local and global coordinates are mutually inverse | Algebra in the orthonormal frame of the lane. |
| C17 | Sine lanes: local and global coordinates are mutually inverse | Same with the sine offset; derivative of the centre line for the tangent claim. |
| C18 | Circular lanes: local and global coordinates are mutually inverse | Polar coordinates through Complex.arg and wrap_to_pi; derivative for the tangent claim. |
| C19 | Being on a lane means the documented strip | Unfold; the truthiness test on optional arguments is modelled. |
| C20 | Forbidden lanes are never reachable | Unfold. |
| C21 | The closest lane is an existing lane at minimal distance | Fold model of the enumeration and first argmin; spec: exists in the network and minimal. |
| C22 | Following the road always yields an existing lane | Exception-valued model of next_lane with RNG oracle and route mutation; case analysis. |
| C23 | Planned routes are real shortest paths | Queue model of the generator with an arbitrary set-order oracle; BFS invariants; termination by well-founded measure on simple paths. |
| C24 | Lane connectivity test means bounded reachability | Well-founded recursion on (depth, route length); equivalence with an inductive reachability relation. |
| C25 | Front and rear neighbours are the nearest ones | Fold invariant. |
| C26 | Close vehicles are the nearest visible ones, sorted | Filter/sort/truncate; stable sort. |
| C27 | Lane-change commands never leave the road | Invariant on act for any network without empty edges. |
| C28 | Steering commands are always bounded | Range of clip after arcsin. |
| C29 | Speed control converges to the target | Induction; limit of a geometric sequence. |
| C30 | Target speeds of the ego vehicle stay on the speed ladder | Invariant over actions with the class-level ladder as a parameter. |
| C31 | Speed/index conversion is a nearest-level rounding | Half-to-even rounding properties. |
| C32 | FASTER and SLOWER move exactly one level | Case analysis with saturation. |
| C33 | Trajectory prediction does not disturb the simulation | The prediction is modelled as a function of a copied state: purity is then by construction, so only the count/timing part and the frame condition on a store model are stated. |
| C34 | Car-following acceleration is bounded above | Real arithmetic. |
| C35 | A leader can only slow you down | Real arithmetic. |
| C36 | Free-road equilibrium | Real arithmetic. |
| C37 | IDM commands are clipped | Range of clip. |
| C38 | Lane changes are not decided more than once per second | History induction with decision timestamps. |
| C39 | Lane changes are safe for the new follower, and decided exactly by MOBIL | Case analysis of `mobil` model. |
| C40 | Crashed traffic vehicles take no decision | Unfold. |
| C41 | Yielding vehicles stop and are released | Two-phase loop model over the vehicle list; invariants. |
| C42 | Priority decides who yields | Case analysis. |
| C43 | One environment step simulates a fixed number of frames | Loop model of `_simulate`; induction on steps. |
| C44 | Available actions are legal and always include IDLE | List reasoning on the built list. |
| C45 | Unavailable actions behave like IDLE | Negation witness + partial theorem under the stated guard. |
| C46 | Discrete action tables are consistent | Finite tables, all configurations. |
| C47 | Continuous actions stay in the documented physical ranges | lmap and clip ranges. |
| C48 | Kinematics observations have a fixed shape | List-length reasoning on the DataFrame model. |
| C49 | Normalised observations are within [-1, 1] | Range of clip. |
| C50 | Occupancy grid writes stay in bounds | Truncation arithmetic. |
| C51 | Time-to-collision observation values | Grid model; padding/shape reasoning. |
| C52 | The finite MDP is well formed | Index arithmetic on ravelled states. |
| C53 | Highway reward is normalised | lmap ranges. |
| C54 | Highway termination | Induction on steps. |
| C55 | Merge reward is normalised | Negation witness + exact range. |
| C56 | Roundabout reward, termination and episodes | Model of roundabout_env.py (map, reset, reward, terminal); `round_reset` (any seed and set order), invariant `RoundState`, `round_episode`. |
| C57 | Two-way reward and cost | lmap ranges. |
| C58 | Intersection reward and termination | Case analysis; mean over list; episodes via the generic never-raises theorem. |
| C59 | Intersection traffic management | Filter reasoning; oracle for random draws; the removal loop of reset is modelled with its skipping. |
| C60 | Parking reward is a distance | Weighted 1-norm to the power p. |
| C61 | Environment roads are well formed | Explicit network models of each environment, parametric in number of lanes. |
| C62 | What a reset changes in other environments | Class attributes are an explicit state (Globals) returned by reset. |
| C63 | Interval arithmetic encloses | Monotonicity of products. |
| C64 | Polytopic enclosure | Convex combinations. |
| C65 | LPV interval predictor is sound | Inductive invariant over steps, matrices as functions on finite index types. |
| C66 | Interval vehicle heading enclosure | Trigonometric monotonicity on the valid window; witness outside. |
| C67 | Simplifying an environment copy keeps the ego and drops only far traffic | Filter reasoning. |
| C68 | Changing one kind of vehicles leaves the ego untouched | Copy model; witness. |
| C69 | Multi-agent actions and observations are componentwise | Zip reasoning. |
| C70 | Bicycle model bounds | Clip invariants; induction. |
| C71 | Building a network adds exactly the lanes asked for | Insertion-ordered dictionaries; equivalence with the `Road` relation before and after. |
| C72 | Deciding does not move anything | Frame relation proved through every function reachable from act |
| C73 | Objects placed on a lane | Characterise the object returned; equivalence of the claim with lane heading 0 |
| C74 | The recorded history is the last 30 states | Induction over the command sequence |
| C75 | Simulation never raises on healthy roads | invariant Healthy kept by every event; totality of every modelled function under it (Props/NoRaise) |
| C76 | A centred vehicle stays centred | induction over cruise steps (Props/Cruise) |
| C77 | Traffic speed envelope | Induction over frames with the IDM law; the negative half by an explicit state. |
| C78 | Environments never raise | Invariant `Ready` over the simulation loop, on top of C75; instantiated by the concrete environments. |
| C79 | Random vehicle creation | Model/Create models create_random over RNG oracle streams; proved by induction on the number of vehicles in Props/Highway |
| C80 | Highway scenes are playable | reset satisfies Ready plus the on-centre invariant; composed with the general never-raises theorem of EnvSafe |
| C81 | Vehicles created on a lane | makeOnLane against the lane geometry and the closest-lane theorem (Props/Routes) |
| C82 | Route planning | on top of shortestPath_correct (Props/Routes) |
| C83 | Choosing a branch at the next intersection | declarative predicate Branching; induction on the route (Props/Routes) |
| C84 | Aborting a lane change | iff-characterisation of the decision through act (Props/Routes) |
| C85 | Goal observations are the scaled features of vehicle and goal | Model/Observation goalObservation; goalObservation_spec |
| C86 | Image stacks hold the last frames | Model/Observation stackFrame; stack_spec by induction over the history |
| C87 | Lane-following vehicles never turn around | steering is proved to be a convex correction of the heading (arcsin, clipping and slip only shrink it), then induction over frames (Lemmas/Cone, Props/Cone) |
| C88 | Summon episodes | Model of reset as a fold over the random stream; invariant ParkingScene; per-state reward and termination; witnesses for the three defects of the reset. |
| C89 | Lane-keeping task: motion, observation, reward and episode bookkeeping | Model of the environment in Model/Envs/LaneKeeping; the single-track model is specified separately in Spec/LaneKeeping; induction over the decisions with the invariant Keeping. |
| C90 | The linear lateral model is the linearisation of the bicycle dynamics | Matrices over the reals; HasDerivAt of the modelled derivative along the line from straight driving to the state; the exact discrepancy (steering to yaw, low speed) is proved. |
| C91 | Yaw of a bicycle vehicle driven straight is damped | Bounds on differences of arctan (monotonicity and mean value theorem), then induction on steps; geometric growth for the instability. |
| C92 | Parameter regression on exact data | Model/Regression.lean; symmetric positive definite linear algebra over Mathlib matrices; counterexample for the polytope in dimension 2 |
| C93 | Hypotheses of a vehicle with several possible routes | Model/MultiModel.lean with the aliasing of the route list as a flag; induction on runs; concrete counterexample with two shifted lanes |
| C94 | Interval vehicles as objects | Model/IntervalVehicle: the class with observer, predictor, recentring, collision check and stored trajectories. Spec/IntervalVehicle: positions of a box that could touch. The check is shown exact for headings along the axes via rectangle intersection; counterexamples for the rest; recentring via exactness of interval middles under affine maps. Partial: robustness fails for other headings. |
| C95 | Traffic following on a lane never runs into the vehicle ahead | Spec/Platoon defines the safe braking distance; Lemmas/Idm proves that one IDM step preserves it (real inequalities); Props/Platoon identifies the front neighbour, the executed motion and the absence of collisions, and closes the induction over frames and vehicles. Also: a leader more than 5 m beyond the lane end is invisible. |
| C96 | What render() shows is the current scene | model the environment object with its rendering attributes, a picture being the scene and camera it was drawn from, operations returning the new object and the result or exception; invariants over sequences of operations |
| C97 | Rendering does not disturb the simulation; closing the window ends it | run the same list of operations on the model with and without rendering attributes; induction on the list |
| C98 | Driving with the keyboard | model the event handlers; specification of an axis as a fold over the events; induction on the batch |
| C99 | The picture shows things where they are | Model/Drawing.lean computes the arguments of the pygame primitives over the reals; truncation bounds, bounding box symmetry, floor arithmetic for the stripe window, list induction for islice |
| C100 | Observations belong to the declared observation space | Model/Spaces.lean: gym spaces, observers as objects with their state, observe() and space() of every type. Spec/Spaces.lean: membership, sequences of observations. Props/Spaces.lean: membership kept along every sequence (induction over the scenes with an invariant on the observer), for several agents by splitting a joint sequence into individual ones; the three counterexamples as theorems. |
| C101 | Configuration and factories | Model/Factory.lean: dictionaries, configuration records with optional entries, both factories, define_spaces and reset. Props/Config.lean: what each key is after any sequence of configurations; accepted and refused configurations; the agents built; reset. |
| C102 | Observing does not disturb the game, and reset/step honour the gym contract | Model/Full: an environment together with its observer; the generator shared by road and observers is threaded through. Frame lemmas for each observation type, then induction over the played actions. |
| C103 | Goal environments: the goals shown are those rewarded | Model/GoalEnv: `step` of ParkingEnv over Model/Full; the three looks are shown to coincide by purity of the goal observer (frame lemma), then induction over the played actions using the reset/reliability theorems of C78-C81. |
| C104 | Merge, roundabout, intersection, two-way (and highway) are gym environments with their default observations and with occupancy grids | Combine the reliability invariants of each environment with observability of the road (attached vehicles, routes whose last lane exists) and the per-observer service contracts (kinematics, occupancy, TTC); induction over the actions, also within a horizon for two-way. |
| C105 | Multi-agent intersection: one reward and one end per agent, fairly shared | Model/Wrapper: the information dictionary, IntersectionEnv.step with it and the wrapper over Model/Full; each step decomposed into simulate, observe, conclude, after; frame of the agents across the traffic update (C58); induction over the joint actions. |
| C106 | Calling a vehicle method on a copy of the environment | Model/Recover: the loop with the value returned by each method; induction over the vehicles, route planning from C82. |
| C107 | Recovering from a stop, and the maximum speed behind a vehicle | Model/Recover: `get_lane` and `neighbour_vehicles` on an index or a lane object, recursion depth as fuel; the parts that hold are `_partial` theorems, the failures are proved for all inputs. |
| C108 | The steering controller converges to the target lane and completes lane changes | Lemmas/Lateral: the quadratic form is a Lyapunov function of the exact nonlinear loop: each nonlinearity (arcsin of the lateral command, the sine of the slip angle, the slip angle, the sine of the course angle) is replaced by a gain in an interval proved from sine bounds, the decrease is convex in the gains so it is checked at the 16 corners by nlinarith, and the four saturations are shown inactive in the region. Props/LaneKeep: induction over the rounds of Spec.cruise on the model of act and step; closest lane of a straight road from the lateral distance alone. |
| C109 | Moving the whole world does not change the simulation | Spec/Translate defines the displaced scene field by field. Lemmas/Translate proves that every function of the simulation (geometry, network queries, neighbour search, controllers, traffic models, collisions, regulation) commutes with it; Props/Translate concludes by induction over the frames and characterises construction. |
| C110 | Traffic settles at its target speed, and a balanced queue stays balanced | Run of frames with unconstrained others; one-frame law of the free vehicle, then induction with contraction factors; queue by induction with the C95 machinery. Theorems in Props/Settle. |
| C111 | Positions along a route and constant-speed predictions | Semantic path of a list of lanes, induction on the route; Lipschitz bounds of each lane shape. Theorems in Props/Along. |
| C112 | No collisions on parallel lanes | Invariant over frames: all same-lane pairs keep the safe distance (chained through the nearest leader, which is what neighbour_vehicles returns since other lanes are more than 3 m away); collisions across lanes excluded by soundness of the rectangle test at right angles. Obstacles: safe distance to speed 0 ahead, more than 5 m once passed; the nearest leader may be an obstacle. Theorems in Props/Lanes. |
| C113 | A journey: following the route, and the time of arrival | Exact frame lemma: on the line the steering is zero, the closest lane is a road of the chain (any lane at distance 0 is), follow_road advances the target along the route; then C110's convergence of the speed gives the distance covered. Theorems in Props/Journey. |
| C114 | Traffic does not see beyond the end of its road | Invariant over frames: full speed before the junction (nobody seen), then an energy bound since braking is at most 6 m/s2 (v^2 + 12 s does not decrease); no overlap at the rectangle test would keep the vehicle behind the standing one for ever, against a speed of at least 7 m/s. Theorem in Props/Junction. |
| C115 | Where the seed matters | Relational induction: every operation of a frame keeps two environments equal up to the generator (Props/Chance); maps without forks enumerated; fork theorem by choosing the generator |
| C116 | One press, one level | Geometric decay of the speed error over the frames of one decision (Settle), the invariant that the vehicle is within a quarter rung of its level so that rounding the speed finds it, induction over the episode; resets of the four environments (Props/Ladder, Spec/Ladder) |
| C117 | Traffic that keeps its lane looks only ahead | The front component of the neighbour search ignores entities behind (fold lemma); a decision depends on the front neighbour, the map and itself; commands and decisions of others leave the first m untouched; relational induction over the decisions of a frame and over frames; collisions on a single lane excluded with C95 (Props/Causality, Spec/Causality) |
| C118 | Actions of several agents are simultaneous | Spec/Joint (KnowsWay, RouteContinues), Props/Joint: induction over the list of agents; acting does not read other vehicles, and reads the generator only at forks. |
| C119 | Turning the whole world by 90° does not change the simulation | Spec/Quarter (the turned scene), Lemmas/Quarter (each function commutes with the turn; headings of lanes only up to whole turns), Props/Quarter: frame by frame, with the invariant that lanes and positions stay in given sets. Spec/Turned, Lemmas/Turned, Props/Turned: the same for whole decisions and episodes of classes that depend on no absolute direction (roads without circles), for `to_dict`, kinematics rows, the time-to-collision grid and the finite MDP. |
| C120 | Episodes and observations do not depend on where the world is | Spec/Moved (the displaced environment; classes that read no absolute position), Lemmas/Moved (step, observations commute with the displacement), Props/Moved: induction on the episode, each environment class shown position-free, merge refuted; Props/MovedTraffic: summon, merge across the road, lane keeping (own step, ordinates shifted), intersection (route search, spawning) for displacements keeping the clock seed, and the counter-example for others. |
| C121 | Driving in a mirror | Reflection of every datum of the model (`Spec/Mirror.lean`); every function of the frame (lane geometry, closest and next lane, controllers, IDM, MOBIL, regulation, integration, collision tests) is shown to commute with it, given that positions have an image along the lanes and that controlled vehicles do not face exactly backwards (`Lemmas/Mirror.lean`, `Lemmas/MirrorMind.lean`), then induction over the frames; on aligned roads the second condition follows from the heading cone of C87. The exceptions are computed on concrete vehicles. |
| C122 | An agent in the mirrored scene sees the mirrored observation | Model/Observation, Model/FiniteMdp. Lane coordinates of the reflected lane and point are (s, -d) (C121), so lane distances, the filter and the sort of close vehicles agree; to_dict commutes with the reflection feature by feature, with or without an origin; linear normalisation over a centred range and clipping to [-1, 1] are odd; shuffling commutes with maps. One equation of results covers rows, observer state, generator and exceptions (Props/MirrorSight). |
| C123 | Episodes in a mirror: the mirrored actions give the same rewards | Spec/MirrorEnv (mirrored environments and actions, OneWay, SideFree), Props/MirrorEpisode. Clipping to [-1, 1] and scaling to a centred steering range are odd, so the mirrored action gives the mirrored command; an action is a list of commands and a frame of an environment a frame of its road, so C121 applies frame by frame and C87 keeps the road one-way; rewards and terminations of the classes read speeds, lanes, crashes, abscissas and the reflected off-road test only; induction over frames of a decision and decisions of an episode. Props/MirrorParking: the goal observation has the sideways columns negated (C122), and the score looks at sizes of differences only; on roads of lines with plain vehicles no condition on headings or frame lengths is needed. |
| C124 | A dynamic bicycle moves alike on both sides, unless it reverses straight | Props/MirrorBicycle: arctan2 is odd in its first argument outside the negative half-axis (Complex.arg of the conjugate), where it is pi; clippings are centred, the rest is linear in the lateral state. Reversing straight: both tire angles are pi, so the lateral derivative is 30 steering - 60 pi with a steering of at most pi/2. (Signed zeros of floats, for which arctan2 would be -pi, are not modelled.) |
