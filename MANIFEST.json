{
 "claims": [
  {
   "property": "C01",
   "status": "proved",
   "theorems": [
    "HighwayEnv.Props.wrapToPi_canonical",
    "HighwayEnv.Props.wrapToPi_only",
    "HighwayEnv.Props.wrapToPi_idempotent",
    "HighwayEnv.Props.wrapToPi_eq_iff"
   ],
   "note": ""
  },
  {
   "property": "C02",
   "status": "proved",
   "theorems": [
    "HighwayEnv.Props.lmap_endpoints",
    "HighwayEnv.Props.lmap_affine",
    "HighwayEnv.Props.lmap_mem",
    "HighwayEnv.Props.lmap_strictMono",
    "HighwayEnv.Props.lmap_inverse"
   ],
   "note": ""
  },
  {
   "property": "C03",
   "status": "proved",
   "theorems": [
    "HighwayEnv.Props.notZero_spec",
    "HighwayEnv.Props.notZero_default",
    "HighwayEnv.Props.notZero_zero"
   ],
   "note": ""
  },
  {
   "property": "C04",
   "status": "proved",
   "theorems": [
    "HighwayEnv.Props.rectanglesIntersect_symm"
   ],
   "note": ""
  },
  {
   "property": "C05",
   "status": "proved",
   "theorems": [
    "HighwayEnv.Props.rectanglesIntersect_aligned_exact",
    "HighwayEnv.Props.rectanglesIntersect_aligned_gap"
   ],
   "note": ""
  },
  {
   "property": "C06",
   "status": "partial",
   "theorems": [
    "HighwayEnv.Props.pointInRotatedRectangle_exact",
    "HighwayEnv.Props.pointInRotatedRectangle_axis_partial",
    "HighwayEnv.Props.pointInRotatedRectangle_wrong",
    "HighwayEnv.Props.rectanglesIntersect_sound_partial",
    "HighwayEnv.Props.rectanglesIntersect_false_positive",
    "HighwayEnv.Props.rectanglesIntersect_false_negative",
    "HighwayEnv.Props.point_in_ellipse"
   ],
   "note": "The claim is false of the code (membership rotates the wrong way); negation proved with witnesses, exact characterisation and the axis-parallel case proved."
  },
  {
   "property": "C07",
   "status": "proved",
   "theorems": [
    "HighwayEnv.Props.precheck_vehicles",
    "HighwayEnv.Props.precheck_objects"
   ],
   "note": "Skipping the rectangle test beyond LENGTH=5 never changes the verdict: two rectangles of half-diagonal < 2.45 cannot intersect."
  },
  {
   "property": "C08",
   "status": "proved",
   "theorems": [
    "HighwayEnv.Props.crash_permanent"
   ],
   "note": "Over every history of actions (any vehicle, any action), Road.act and Road.step of any duration, plain or regulated roads."
  },
  {
   "property": "C09",
   "status": "proved",
   "theorems": [
    "HighwayEnv.Props.crashed_iff",
    "HighwayEnv.Props.both_crash",
    "HighwayEnv.Props.step_crashed_iff",
    "HighwayEnv.Props.landmark_hit"
   ],
   "note": "Exact characterisation (iff) of the crash flags after the pass, for any number of vehicles and objects; overlap is the code's own rectangle test (C04-C06 relate it to geometry)."
  },
  {
   "property": "C10",
   "status": "proved",
   "theorems": [
    "HighwayEnv.Props.collision_frame",
    "HighwayEnv.Props.collision_frame_objects"
   ],
   "note": ""
  },
  {
   "property": "C11",
   "status": "partial",
   "theorems": [
    "HighwayEnv.Props.crashed_coasts",
    "HighwayEnv.Props.crashed_stops",
    "HighwayEnv.Props.crashed_reverse_overspeed",
    "HighwayEnv.Props.crashed_bicycle_turns",
    "HighwayEnv.Props.drive_ok"
   ],
   "note": "crashed_coasts proves the claim for every kinematic vehicle class not reversing beyond MAX_SPEED; the two excluded cases are shown to be genuinely false of the code."
  },
  {
   "property": "C12",
   "status": "proved",
   "theorems": [
    "HighwayEnv.Props.speed_envelope",
    "HighwayEnv.Props.reverse_overspeed_jolt"
   ],
   "note": "Both directions, all classes, any number of steps."
  },
  {
   "property": "C13",
   "status": "proved",
   "theorems": [
    "HighwayEnv.Props.step_displacement"
   ],
   "note": "For all kinematic (non dynamical bicycle) classes."
  },
  {
   "property": "C14",
   "status": "proved",
   "theorems": [
    "HighwayEnv.Props.move_equivariant"
   ],
   "note": "All classes; rigid motions act on the pose, the lane lookup of on_state_update is excluded since it depends on the network."
  },
  {
   "property": "C15",
   "status": "proved",
   "theorems": [
    "HighwayEnv.Props.straight_closed_form"
   ],
   "note": ""
  },
  {
   "property": "C16",
   "status": "proved",
   "theorems": [
    "HighwayEnv.Props.straight_position_localCoordinates",
    "HighwayEnv.Props.straight_localCoordinates_position",
    "HighwayEnv.Props.straight_isometry",
    "HighwayEnv.Props.straight_endpoints_heading"
   ],
   "note": ""
  },
  {
   "property": "C17",
   "status": "proved",
   "theorems": [
    "HighwayEnv.Props.sine_position_localCoordinates",
    "HighwayEnv.Props.sine_localCoordinates_position",
    "HighwayEnv.Props.sine_heading_tangent"
   ],
   "note": ""
  },
  {
   "property": "C18",
   "status": "proved",
   "theorems": [
    "HighwayEnv.Props.circular_position_localCoordinates",
    "HighwayEnv.Props.circular_localCoordinates_position",
    "HighwayEnv.Props.circular_roundtrip",
    "HighwayEnv.Props.circular_local_range",
    "HighwayEnv.Props.circular_heading_tangent",
    "HighwayEnv.Props.circular_endpoints"
   ],
   "note": ""
  },
  {
   "property": "C19",
   "status": "proved",
   "theorems": [
    "HighwayEnv.Props.onLane_iff",
    "HighwayEnv.Props.onLane_precomputed",
    "HighwayEnv.Props.afterEnd_iff",
    "HighwayEnv.Props.onLane_straight_strip",
    "HighwayEnv.Props.distance_zero_iff",
    "HighwayEnv.Props.distanceWithHeading_eq"
   ],
   "note": ""
  },
  {
   "property": "C20",
   "status": "proved",
   "theorems": [
    "HighwayEnv.Props.forbidden_never_reachable",
    "HighwayEnv.Props.reachable_iff"
   ],
   "note": ""
  },
  {
   "property": "C21",
   "status": "proved",
   "theorems": [
    "HighwayEnv.Props.closestLane_minimal",
    "HighwayEnv.Props.closestLane_error_iff"
   ],
   "note": ""
  },
  {
   "property": "C22",
   "status": "proved",
   "theorems": [
    "HighwayEnv.Props.nextLane_valid",
    "HighwayEnv.Props.nextLane_follows_route",
    "HighwayEnv.Props.nextLane_error",
    "HighwayEnv.Props.nextLane_unplanned"
   ],
   "note": ""
  },
  {
   "property": "C23",
   "status": "proved",
   "theorems": [
    "HighwayEnv.Props.bfsPaths_exact",
    "HighwayEnv.Props.bfsPaths_unknown_start",
    "HighwayEnv.Props.shortestPath_correct"
   ],
   "note": ""
  },
  {
   "property": "C24",
   "status": "proved",
   "theorems": [
    "HighwayEnv.Props.isConnectedRoad_iff",
    "HighwayEnv.Props.isConnectedRoad_depth_mono",
    "HighwayEnv.Props.isConnectedRoad_follows_route",
    "HighwayEnv.Props.isConnectedRoad_skips_current",
    "HighwayEnv.Props.isConnectedRoad_same_lane",
    "HighwayEnv.Props.isConnectedRoad_same_lane_le",
    "HighwayEnv.Props.isConnectedRoad_deeper"
   ],
   "note": ""
  },
  {
   "property": "C25",
   "status": "proved",
   "theorems": [
    "HighwayEnv.Props.neighbours_nearest",
    "HighwayEnv.Props.neighbours_sound"
   ],
   "note": ""
  },
  {
   "property": "C26",
   "status": "proved",
   "theorems": [
    "HighwayEnv.Props.close_all",
    "HighwayEnv.Props.close_count"
   ],
   "note": ""
  },
  {
   "property": "C27",
   "status": "proved",
   "theorems": [
    "HighwayEnv.Props.construction_attached",
    "HighwayEnv.Props.command_lane",
    "HighwayEnv.Props.traffic_lane",
    "HighwayEnv.Props.always_attached"
   ],
   "note": "for every class of vehicle and every history of a road"
  },
  {
   "property": "C28",
   "status": "proved",
   "theorems": [
    "HighwayEnv.Props.steering_bounded",
    "HighwayEnv.Props.construction_straight"
   ],
   "note": ""
  },
  {
   "property": "C29",
   "status": "proved",
   "theorems": [
    "HighwayEnv.Props.speed_error",
    "HighwayEnv.Props.speed_no_overshoot",
    "HighwayEnv.Props.speed_error_tendsto",
    "HighwayEnv.Props.cruise_ok"
   ],
   "note": ""
  },
  {
   "property": "C30",
   "status": "proved",
   "theorems": [
    "HighwayEnv.Props.construction_ladder",
    "HighwayEnv.Props.always_on_ladder",
    "HighwayEnv.Props.level_range"
   ],
   "note": ""
  },
  {
   "property": "C31",
   "status": "proved",
   "theorems": [
    "HighwayEnv.Props.index_roundtrip",
    "HighwayEnv.Props.index_nearest",
    "HighwayEnv.Props.index_midpoint"
   ],
   "note": ""
  },
  {
   "property": "C32",
   "status": "proved",
   "theorems": [
    "HighwayEnv.Props.faster_slower"
   ],
   "note": ""
  },
  {
   "property": "C33",
   "status": "proved",
   "theorems": [
    "HighwayEnv.Props.prediction_samples",
    "HighwayEnv.Props.prediction_zero_period",
    "HighwayEnv.Props.rollout_length"
   ],
   "note": "the model of predict_trajectory works on copies (deepcopy) so that nothing else changes is by construction of the model; what is proved is which states are returned and when it raises"
  },
  {
   "property": "C34",
   "status": "proved",
   "theorems": [
    "HighwayEnv.Props.idm_law",
    "HighwayEnv.Props.idm_acc_le_max",
    "HighwayEnv.Props.idm_acc_eq_max"
   ],
   "note": ""
  },
  {
   "property": "C35",
   "status": "proved",
   "theorems": [
    "HighwayEnv.Props.leader_slows",
    "HighwayEnv.Props.closer_slows"
   ],
   "note": ""
  },
  {
   "property": "C36",
   "status": "proved",
   "theorems": [
    "HighwayEnv.Props.free_road_equilibrium",
    "HighwayEnv.Props.free_road_law",
    "HighwayEnv.Props.free_road_linear"
   ],
   "note": ""
  },
  {
   "property": "C37",
   "status": "proved",
   "theorems": [
    "HighwayEnv.Props.traffic_command"
   ],
   "note": "Also bounds the steering command."
  },
  {
   "property": "C38",
   "status": "proved",
   "theorems": [
    "HighwayEnv.Props.lane_change_timer",
    "HighwayEnv.Props.lane_change_delay"
   ],
   "note": "Decision = a traffic vehicle that follows its lane selects another one; two decisions in one history are more than LANE_CHANGE_DELAY of simulated time apart."
  },
  {
   "property": "C39",
   "status": "proved",
   "theorems": [
    "HighwayEnv.Props.mobil_accepts",
    "HighwayEnv.Props.lane_change_safe",
    "HighwayEnv.Props.mobil_exact",
    "HighwayEnv.Props.lane_change_exact"
   ],
   "note": ""
  },
  {
   "property": "C40",
   "status": "proved",
   "theorems": [
    "HighwayEnv.Props.crashed_traffic_idle"
   ],
   "note": ""
  },
  {
   "property": "C41",
   "status": "proved",
   "theorems": [
    "HighwayEnv.Props.conflict_iff",
    "HighwayEnv.Props.regulation_pass",
    "HighwayEnv.Props.conflict_resolved",
    "HighwayEnv.Props.ego_untouched",
    "HighwayEnv.Props.regulation_schedule"
   ],
   "note": "The \"never raises\" part is C75."
  },
  {
   "property": "C42",
   "status": "proved",
   "theorems": [
    "HighwayEnv.Props.priorities_iff",
    "HighwayEnv.Props.lower_priority_yields",
    "HighwayEnv.Props.behind_yields",
    "HighwayEnv.Props.not_both_yield"
   ],
   "note": "priorities_iff is the exact characterisation; \"behind\" is order-independent when the headings are equal."
  },
  {
   "property": "C43",
   "status": "proved",
   "theorems": [
    "HighwayEnv.Props.one_decision",
    "HighwayEnv.Props.decision_keeps",
    "HighwayEnv.Props.episode_clock",
    "HighwayEnv.Props.episode_history",
    "HighwayEnv.Props.action_lost_after_termination"
   ],
   "note": "One decision executes the commands of the action once and then simulates the period's frames, fewer exactly when closed/terminal; the clock is exact over any number of non-terminal decisions. Also shown: stepping on after an early termination loses actions. Rendering is not modelled."
  },
  {
   "property": "C44",
   "status": "proved",
   "theorems": [
    "HighwayEnv.Props.available_exact",
    "HighwayEnv.Props.available_refuses"
   ],
   "note": "Exact characterisation, both directions, every state with a valid lane index."
  },
  {
   "property": "C45",
   "status": "partial",
   "theorems": [
    "HighwayEnv.Props.unavailable_idle_partial",
    "HighwayEnv.Props.unavailable_not_idle",
    "HighwayEnv.Props.available_effective"
   ],
   "note": "False in general (witness unavailable_not_idle: FASTER on the top level lowers the target when the vehicle is still slow); holds under the stated guards. Offered actions do take effect under the same guards."
  },
  {
   "property": "C46",
   "status": "proved",
   "theorems": [
    "HighwayEnv.Props.discrete_table",
    "HighwayEnv.Props.no_axis_refused"
   ],
   "note": ""
  },
  {
   "property": "C47",
   "status": "proved",
   "theorems": [
    "HighwayEnv.Props.continuous_ranges",
    "HighwayEnv.Props.continuous_full",
    "HighwayEnv.Props.unclipped_exceeds"
   ],
   "note": ""
  },
  {
   "property": "C48",
   "status": "proved",
   "theorems": [
    "HighwayEnv.Props.kinematics_rows",
    "HighwayEnv.Props.kinematics_presence",
    "HighwayEnv.Props.kinematics_single",
    "HighwayEnv.Props.kinematics_never_raises",
    "HighwayEnv.Props.shuffle_any",
    "HighwayEnv.Props.shuffle_fresh"
   ],
   "note": "Finding: with vehicles_count = 1 the observation does not have one row (slice [-0:])."
  },
  {
   "property": "C49",
   "status": "proved",
   "theorems": [
    "HighwayEnv.Props.kinematics_bounded",
    "HighwayEnv.Props.kinematics_heading_raw"
   ],
   "note": "Finding: heading is not bounded under the default ranges."
  },
  {
   "property": "C50",
   "status": "proved",
   "theorems": [
    "HighwayEnv.Props.occupancy_cells",
    "HighwayEnv.Props.occupancy_bounded",
    "HighwayEnv.Props.occupancy_never_raises",
    "HighwayEnv.Props.occupancy_init",
    "HighwayEnv.Props.occupancy_init_default",
    "HighwayEnv.Props.occupancy_covers",
    "HighwayEnv.Props.occupancy_transposed",
    "HighwayEnv.Props.occupancy_spill"
   ],
   "note": "Each cell holds the last vehicle seen in it. Two findings: on non-square grids the axes are exchanged in the bounds check (occupancy_transposed) and vehicles up to one step before the area are drawn in the first cells (occupancy_spill); the documented default grid_step raises TypeError."
  },
  {
   "property": "C51",
   "status": "proved",
   "theorems": [
    "HighwayEnv.Props.ttc_grid",
    "HighwayEnv.Props.ttc_values",
    "HighwayEnv.Props.ttc_never_raises",
    "HighwayEnv.Props.ttc_overflow",
    "HighwayEnv.Props.ttc_observation",
    "HighwayEnv.Props.ttc_observation_single",
    "HighwayEnv.Props.ttc_observation_values"
   ],
   "note": "Findings: single speed level gives 2 planes; lane overflow for agents on another road than the first one."
  },
  {
   "property": "C52",
   "status": "proved",
   "theorems": [
    "HighwayEnv.Props.cell_bijective",
    "HighwayEnv.Props.finite_mdp_spec",
    "HighwayEnv.Props.finite_mdp_run",
    "HighwayEnv.Props.finite_mdp_never_raises",
    "HighwayEnv.Props.finite_mdp_reward_range"
   ],
   "note": "The external class DeterministicMDP is not modelled, only its arguments."
  },
  {
   "property": "C53",
   "status": "proved",
   "theorems": [
    "HighwayEnv.Props.highway_reward",
    "HighwayEnv.Props.score_bounds",
    "HighwayEnv.Props.score_monotone",
    "HighwayEnv.Props.score_one_iff",
    "HighwayEnv.Props.highway_episode",
    "HighwayEnv.Props.score_strict"
   ],
   "note": "reward of every reachable state equals an independent score, which is in [0,1] (collision reward <= 0), monotone in lane and speed, strictly lowered by a crash"
  },
  {
   "property": "C54",
   "status": "proved",
   "theorems": [
    "HighwayEnv.Props.highway_terminal_iff",
    "HighwayEnv.Props.highway_episode"
   ],
   "note": ""
  },
  {
   "property": "C55",
   "status": "partial",
   "theorems": [
    "HighwayEnv.Props.merge_reward",
    "HighwayEnv.Props.merge_reward_ready",
    "HighwayEnv.Props.merge_score_range_partial",
    "HighwayEnv.Props.merge_score_monotone",
    "HighwayEnv.Props.merge_below_zero",
    "HighwayEnv.Props.merge_above_one",
    "HighwayEnv.Props.merge_penalised",
    "HighwayEnv.Props.merge_terminal_iff",
    "HighwayEnv.Props.merge_reliable",
    "HighwayEnv.Props.merge_reset",
    "HighwayEnv.Props.merge_episode"
   ],
   "note": "The claim as documented is false: merge_below_zero and merge_above_one are states with a reward outside [0,1]. Proved: the reward is exactly the documented score in every reachable state of every episode, its range under the stated conditions (lane 0 or 1, slowdown in [0,1], no lane change while crashed), monotonicity, termination. Also: the lane-change penalty hits speed changes when lateral actions are disabled."
  },
  {
   "property": "C56",
   "status": "proved",
   "theorems": [
    "HighwayEnv.Props.round_reward",
    "HighwayEnv.Props.round_score_range",
    "HighwayEnv.Props.round_score_extreme",
    "HighwayEnv.Props.round_terminal_iff",
    "HighwayEnv.Props.round_continuous_raises",
    "HighwayEnv.Props.round_reset",
    "HighwayEnv.Props.round_reward_ready",
    "HighwayEnv.Props.round_reliable",
    "HighwayEnv.Props.round_episode",
    "HighwayEnv.Props.round_default_ok",
    "HighwayEnv.Props.round_reward_tuple"
   ],
   "note": "Roundabout with meta-actions: reward, range, exact termination and whole episodes from any reset; two-axis continuous actions raise (proved)."
  },
  {
   "property": "C57",
   "status": "proved",
   "theorems": [
    "HighwayEnv.Props.twoWay_network",
    "HighwayEnv.Props.twoWayNet_wf",
    "HighwayEnv.Props.twoWayNet_lanes",
    "HighwayEnv.Props.twoWay_shared",
    "HighwayEnv.Props.twoWay_closest",
    "HighwayEnv.Props.twoWay_reset",
    "HighwayEnv.Props.twoWay_overlap",
    "HighwayEnv.Props.twoWay_reward",
    "HighwayEnv.Props.twoWay_raises",
    "HighwayEnv.Props.twoWay_score_range",
    "HighwayEnv.Props.twoWay_cost",
    "HighwayEnv.Props.twoWay_terminal_iff",
    "HighwayEnv.Props.twoWay_default_ok",
    "HighwayEnv.Props.twoWay_never_opposite",
    "HighwayEnv.Props.twoWay_frame",
    "HighwayEnv.Props.twoWay_reliable",
    "HighwayEnv.Props.twoWay_episode",
    "HighwayEnv.Props.twoWay_reward_classes"
   ],
   "note": "Reward, cost, termination, reset scene and whole episodes before the end of the road; twoWay_raises proves that beyond it the reward raises. twoWay_overlap: the random placement can put a vehicle exactly on the ego vehicle."
  },
  {
   "property": "C58",
   "status": "proved",
   "theorems": [
    "HighwayEnv.Props.agents_unique",
    "HighwayEnv.Props.inter_reward",
    "HighwayEnv.Props.inter_score_range",
    "HighwayEnv.Props.inter_score_cases",
    "HighwayEnv.Props.inter_terminal_iff",
    "HighwayEnv.Props.inter_agent_done_iff",
    "HighwayEnv.Props.inter_info",
    "HighwayEnv.Props.inter_reset",
    "HighwayEnv.Props.inter_four",
    "HighwayEnv.Props.inter_play",
    "HighwayEnv.Props.inter_episode",
    "HighwayEnv.Props.inter_default_ok",
    "HighwayEnv.Props.inter_team"
   ],
   "note": "For every state and number of agents. Scores as the code gives them: an arrived vehicle scores 1 even if crashed, and a crash at the highest level gives the collision reward plus 1. Resets with several agents: proved ready unless a later agent is created within 20 m of an earlier one (inter_reset), which cannot happen for up to four agents starting at most 90 m along their lanes (inter_four) \u2014 in particular whenever no variate of the generator exceeds 6 (inter_team)."
  },
  {
   "property": "C59",
   "status": "proved",
   "theorems": [
    "HighwayEnv.Props.inter_trip",
    "HighwayEnv.Props.inter_arrived",
    "HighwayEnv.Props.inter_leaving",
    "HighwayEnv.Props.inter_clear",
    "HighwayEnv.Props.inter_keeps_agents",
    "HighwayEnv.Props.inter_spawn",
    "HighwayEnv.Props.inter_spawn_road",
    "HighwayEnv.Props.spawn_outcome_cases",
    "HighwayEnv.Props.inter_after",
    "HighwayEnv.Props.removal_only_near",
    "HighwayEnv.Props.removal_exact_partial",
    "HighwayEnv.Props.removal_skips",
    "HighwayEnv.Props.inter_initial_traffic"
   ],
   "note": "Clearing and spawning for every state and draw. At reset the code removes vehicles while iterating over the list, so a vehicle following a removed one is skipped: removal_exact_partial (exact when no two near vehicles are adjacent) and removal_skips (the defect)."
  },
  {
   "property": "C60",
   "status": "proved",
   "theorems": [
    "HighwayEnv.Props.parking_reward_eq",
    "HighwayEnv.Props.parking_reward_size",
    "HighwayEnv.Props.parking_reward_zero",
    "HighwayEnv.Props.parking_reward_mono",
    "HighwayEnv.Props.parking_success_iff",
    "HighwayEnv.Props.parking_gap_zero",
    "HighwayEnv.Props.parking_state",
    "HighwayEnv.Props.parking_lasting",
    "HighwayEnv.Props.parking_reset",
    "HighwayEnv.Props.parking_reliable",
    "HighwayEnv.Props.parking_episode",
    "HighwayEnv.Props.parking_single",
    "HighwayEnv.Props.parking_default_ok",
    "HighwayEnv.Props.alone_never_crashes"
   ],
   "note": "Reward function (all goals, all p > 0), and what it is in every state of every episode; a lone agent never crashes. Finding: speed does not count for success."
  },
  {
   "property": "C61",
   "status": "partial",
   "theorems": [
    "HighwayEnv.Props.merge_network",
    "HighwayEnv.Props.mergeNet_wf",
    "HighwayEnv.Props.mergeNet_lanes",
    "HighwayEnv.Props.merge_continuous",
    "HighwayEnv.Props.merge_dead_end",
    "HighwayEnv.Props.twoWay_network",
    "HighwayEnv.Props.twoWayNet_wf",
    "HighwayEnv.Props.twoWay_shared",
    "HighwayEnv.Props.round_network",
    "HighwayEnv.Props.roundNet_wf",
    "HighwayEnv.Props.roundNet_lanes",
    "HighwayEnv.Props.round_ring_closed",
    "HighwayEnv.Props.round_access_joined",
    "HighwayEnv.Props.round_entry_gap",
    "HighwayEnv.Props.round_exit_gap",
    "HighwayEnv.Props.round_lengths",
    "HighwayEnv.Props.round_ego_lane",
    "HighwayEnv.Props.round_trip",
    "HighwayEnv.Props.inter_network",
    "HighwayEnv.Props.interNet_wf",
    "HighwayEnv.Props.interNet_lanes",
    "HighwayEnv.Props.inter_continuous",
    "HighwayEnv.Props.inter_uturn",
    "HighwayEnv.Props.access_lane",
    "HighwayEnv.Props.inter_here",
    "HighwayEnv.Props.planned_precise",
    "HighwayEnv.Props.inter_healthy",
    "HighwayEnv.Props.parking_network",
    "HighwayEnv.Props.summon_network",
    "HighwayEnv.Props.parkingNet_wf",
    "HighwayEnv.Props.summonNet_wf",
    "HighwayEnv.Props.parkingNet_lanes",
    "HighwayEnv.Props.summonNet_lanes",
    "HighwayEnv.Props.spot_geometry",
    "HighwayEnv.Props.spots_tile",
    "HighwayEnv.Props.parking_not_chained",
    "HighwayEnv.Props.spots_disjoint"
   ],
   "note": "Every map is the documented list of lanes and is well formed (all lookups succeed). The claim that lanes chain end-to-start is false of the code: continuity is proved where it holds and refuted where it does not (roundabout entries and exits do not meet the circle, U-turn at the outer nodes of the intersection, dead ends, parking spots joined in the graph but not in space)."
  },
  {
   "property": "C62",
   "status": "proved",
   "theorems": [
    "HighwayEnv.Props.round_reset_differs",
    "HighwayEnv.Props.round_spoils_others",
    "HighwayEnv.Props.round_reset_settles",
    "HighwayEnv.Props.inter_spoils_others",
    "HighwayEnv.Props.inter_reset_settles",
    "HighwayEnv.Props.resets_globals",
    "HighwayEnv.Props.resets_order",
    "HighwayEnv.Props.resets_harmless"
   ],
   "note": "The shared state is the modelled set of class attributes (Globals); resets of the other modelled environments do not return a changed one."
  },
  {
   "property": "C63",
   "status": "proved",
   "theorems": [
    "HighwayEnv.Props.product_encloses",
    "HighwayEnv.Props.product_exact",
    "HighwayEnv.Props.product_loose",
    "HighwayEnv.Props.scaling_exact",
    "HighwayEnv.Props.diff_exact",
    "HighwayEnv.Props.negativePart_exact",
    "HighwayEnv.Props.integrator_step",
    "HighwayEnv.Props.integrator_not_enclosing",
    "HighwayEnv.Props.section_exact",
    "HighwayEnv.Props.absoluteToLocal_exact",
    "HighwayEnv.Props.localToAbsolute_exact",
    "HighwayEnv.Props.absoluteToLocal_circular"
   ],
   "note": "Products enclose (numbers, dot products, matrix-vector, scalings); exact ranges for one-signed factors, scalings, differences, negative parts, projections and straight lane frames; loose product, integrator bounds and circular lanes characterised by witnesses."
  },
  {
   "property": "C64",
   "status": "proved",
   "theorems": [
    "HighwayEnv.Props.polytope_exact",
    "HighwayEnv.Props.polytope_inPolytope"
   ],
   "note": "For matrices affine in the parameters, the parameter box and the convex hull of the deviations give exactly the same matrices."
  },
  {
   "property": "C65",
   "status": "proved",
   "theorems": [
    "HighwayEnv.Props.predictor_encloses",
    "HighwayEnv.Props.naive_encloses",
    "HighwayEnv.Props.lpv_encloses",
    "HighwayEnv.Props.lpv_encloses_rotated",
    "HighwayEnv.Props.lpv_encloses_unrotated",
    "HighwayEnv.Props.lpv_runs",
    "HighwayEnv.Props.lpv_rotated_disturbance_lost",
    "HighwayEnv.Props.longitudinal_encloses",
    "HighwayEnv.Props.lateral_encloses",
    "HighwayEnv.Props.lateral_default_no_eigenvector",
    "HighwayEnv.Props.predictor_step_encloses",
    "HighwayEnv.Props.boxToPolytope_ne_nil",
    "HighwayEnv.Props.longitudinal_driver",
    "HighwayEnv.Props.lpv_controlled",
    "HighwayEnv.Props.lpv_controlled_rotated"
   ],
   "note": "Inclusion for any number of steps, for each of the three frames the constructor may choose, and for the longitudinal and lateral predictors of interval vehicles; findings: the disturbance matrix is not rotated, the centre is ignored without frame, headings are stored relative to the lane."
  },
  {
   "property": "C66",
   "status": "proved",
   "theorems": [
    "HighwayEnv.Props.observer_encloses",
    "HighwayEnv.Props.observer_acceleration",
    "HighwayEnv.Props.observer_heading",
    "HighwayEnv.Props.observer_of_vehicle",
    "HighwayEnv.Props.cosI_encloses",
    "HighwayEnv.Props.sinI_encloses",
    "HighwayEnv.Props.cosI_window",
    "HighwayEnv.Props.partial_step_not_enclosing",
    "HighwayEnv.Props.partial_step_headings"
   ],
   "note": "Full observer step: position, speed, heading.  Findings: cosine interval wrong outside [-pi, 2pi]; the default partial step does not enclose."
  },
  {
   "property": "C67",
   "status": "proved",
   "theorems": [
    "HighwayEnv.Props.simplify_keeps"
   ],
   "note": "deepcopy is modelled by values."
  },
  {
   "property": "C68",
   "status": "partial",
   "theorems": [
    "HighwayEnv.Props.changeVehicles_spec",
    "HighwayEnv.Props.preferredLane_spec",
    "HighwayEnv.Props.preferredLane_raises",
    "HighwayEnv.Props.setRoute_spec",
    "HighwayEnv.Props.randomize_spec",
    "HighwayEnv.Props.setVehicleField_reaches_ego",
    "HighwayEnv.Props.setRoute_turns"
   ],
   "note": "Proved for change_vehicles, set_preferred_lane, set_route_at_intersection, randomize_behaviour; false for set_vehicle_field (setVehicleField_reaches_ego). Found: set_preferred_lane raises TypeError whenever a traffic vehicle has no route."
  },
  {
   "property": "C69",
   "status": "proved",
   "theorems": [
    "HighwayEnv.Props.agents_isolated",
    "HighwayEnv.Props.single_agent",
    "HighwayEnv.Props.agents_continuous",
    "HighwayEnv.Props.observeAll_spec",
    "HighwayEnv.Props.observe_rng",
    "HighwayEnv.Props.agents_in_space",
    "HighwayEnv.Props.declared_actions_accepted",
    "HighwayEnv.Props.joint_simultaneous",
    "HighwayEnv.Props.joint_order",
    "HighwayEnv.Props.joint_frame"
   ],
   "note": "Actions and observations of every agent."
  },
  {
   "property": "C70",
   "status": "partial",
   "theorems": [
    "HighwayEnv.Props.bicycle_bounds",
    "HighwayEnv.Props.bicycle_straight_partial",
    "HighwayEnv.Props.bicycle_reverse_slides"
   ],
   "note": "Straight driving holds unless reversing at 1 m/s or more, where it is shown false."
  },
  {
   "property": "C71",
   "status": "proved",
   "theorems": [
    "HighwayEnv.Props.addLane_road",
    "HighwayEnv.Props.addLane_wellFormed",
    "HighwayEnv.Props.empty_wellFormed"
   ],
   "note": ""
  },
  {
   "property": "C72",
   "status": "proved",
   "theorems": [
    "HighwayEnv.Props.deciding_does_not_move",
    "HighwayEnv.Props.road_act_does_not_move"
   ],
   "note": ""
  },
  {
   "property": "C73",
   "status": "proved",
   "theorems": [
    "HighwayEnv.Props.object_on_lane",
    "HighwayEnv.Props.object_on_lane_aligned_iff"
   ],
   "note": "An earlier reading of the documentation (aligned with the lane and motionless) is false of the code; the property states what it does."
  },
  {
   "property": "C74",
   "status": "proved",
   "theorems": [
    "HighwayEnv.Props.history_recorded",
    "HighwayEnv.Props.frame_records",
    "HighwayEnv.Props.history_replays",
    "HighwayEnv.Props.highway_history",
    "HighwayEnv.Props.merge_history",
    "HighwayEnv.Props.twoWay_history",
    "HighwayEnv.Props.round_history",
    "HighwayEnv.Props.parking_history"
   ],
   "note": ""
  },
  {
   "property": "C75",
   "status": "proved",
   "theorems": [
    "HighwayEnv.Props.act_never_raises",
    "HighwayEnv.Props.healthy_forever",
    "HighwayEnv.Props.roadAct_never_raises",
    "HighwayEnv.Props.roadStep_never_raises",
    "HighwayEnv.Props.never_raises",
    "HighwayEnv.Props.linear_needs_controlled",
    "HighwayEnv.Props.regulated_needs_small_dt"
   ],
   "note": ""
  },
  {
   "property": "C76",
   "status": "proved",
   "theorems": [
    "HighwayEnv.Props.stays_centred"
   ],
   "note": ""
  },
  {
   "property": "C77",
   "status": "proved",
   "theorems": [
    "HighwayEnv.Props.traffic_never_speeds",
    "HighwayEnv.Props.traffic_reverses"
   ],
   "note": ""
  },
  {
   "property": "C78",
   "status": "proved",
   "theorems": [
    "HighwayEnv.Props.command_total",
    "HighwayEnv.Props.step_never_raises",
    "HighwayEnv.Props.episode_never_raises",
    "HighwayEnv.Props.step_until",
    "HighwayEnv.Props.episode_until"
   ],
   "note": "Concrete environments instantiate the Reliable hypothesis."
  },
  {
   "property": "C79",
   "status": "proved",
   "theorems": [
    "HighwayEnv.Props.createRandom_spec",
    "HighwayEnv.Props.addRandom_spec"
   ],
   "note": ""
  },
  {
   "property": "C80",
   "status": "proved",
   "theorems": [
    "HighwayEnv.Props.highway_reset",
    "HighwayEnv.Props.highway_reset_apart",
    "HighwayEnv.Props.highway_reliable",
    "HighwayEnv.Props.highway_episode"
   ],
   "note": ""
  },
  {
   "property": "C81",
   "status": "proved",
   "theorems": [
    "HighwayEnv.Props.makeOnLane_spec",
    "HighwayEnv.Props.makeOnLane_coordinates"
   ],
   "note": ""
  },
  {
   "property": "C82",
   "status": "proved",
   "theorems": [
    "HighwayEnv.Props.planRoute_spec",
    "HighwayEnv.Props.planRoute_route"
   ],
   "note": ""
  },
  {
   "property": "C83",
   "status": "proved",
   "theorems": [
    "HighwayEnv.Props.chooseRoute_spec",
    "HighwayEnv.Props.chooseRoute_exists"
   ],
   "note": ""
  },
  {
   "property": "C84",
   "status": "proved",
   "theorems": [
    "HighwayEnv.Props.lane_change_abort"
   ],
   "note": ""
  },
  {
   "property": "C85",
   "status": "proved",
   "theorems": [
    "HighwayEnv.Props.goalObservation_spec"
   ],
   "note": ""
  },
  {
   "property": "C86",
   "status": "proved",
   "theorems": [
    "HighwayEnv.Props.stack_spec"
   ],
   "note": "Frames are opaque: rendering is not modelled."
  },
  {
   "property": "C87",
   "status": "proved",
   "theorems": [
    "HighwayEnv.Props.heading_stays",
    "HighwayEnv.Props.moves_forward",
    "HighwayEnv.Props.highway_aligned",
    "HighwayEnv.Props.merge_aligned",
    "HighwayEnv.Props.merge_heading"
   ],
   "note": "Invariant over any number of frames; instantiated on the highway and merge maps."
  },
  {
   "property": "C88",
   "status": "proved",
   "theorems": [
    "HighwayEnv.Props.summon_state",
    "HighwayEnv.Props.summon_reset",
    "HighwayEnv.Props.summon_start_free",
    "HighwayEnv.Props.summon_start_parked",
    "HighwayEnv.Props.summon_reliable",
    "HighwayEnv.Props.summon_episode",
    "HighwayEnv.Props.summon_default_ok",
    "HighwayEnv.Props.summon_reset_raises",
    "HighwayEnv.Props.summon_on_top",
    "HighwayEnv.Props.summon_traffic_overlap"
   ],
   "note": "Episodes proved; the three defects of the reset proved with witnesses."
  },
  {
   "property": "C89",
   "status": "proved",
   "theorems": [
    "HighwayEnv.Props.keeping_network",
    "HighwayEnv.Props.keepingNet_wf",
    "HighwayEnv.Props.keeping_lanes",
    "HighwayEnv.Props.keeping_step",
    "HighwayEnv.Props.keeping_reset",
    "HighwayEnv.Props.keeping_make",
    "HighwayEnv.Props.keeping_canReset",
    "HighwayEnv.Props.keeping_episode",
    "HighwayEnv.Props.keeping_speed",
    "HighwayEnv.Props.keeping_default_ok",
    "HighwayEnv.Props.keeping_reward",
    "HighwayEnv.Props.keeping_reference_sine",
    "HighwayEnv.Props.keeping_reference_biased",
    "HighwayEnv.Props.keeping_noise"
   ],
   "note": "Steering-only configurations. The map, construction, reset, single decisions, whole episodes over several resets, the values of the reward and of the reference, with the bias on the straight lane."
  },
  {
   "property": "C90",
   "status": "partial",
   "theorems": [
    "HighwayEnv.Props.linear_model",
    "HighwayEnv.Props.full_linear_model",
    "HighwayEnv.Props.linear_model_slow",
    "HighwayEnv.Props.linear_matrices"
   ],
   "note": "Exact on every entry from 1 m/s on except the effect of steering on the yaw acceleration, which is half of the true one (linear_model, full_linear_model); below 1 m/s the linear model has no damping (linear_model_slow)."
  },
  {
   "property": "C91",
   "status": "proved",
   "theorems": [
    "HighwayEnv.Props.bicycle_yaw_damped",
    "HighwayEnv.Props.bicycle_yaw_unstable"
   ],
   "note": "Sharp threshold: damping from 2250/37 dt on, instability below."
  },
  {
   "property": "C92",
   "status": "partial",
   "theorems": [
    "HighwayEnv.Props.estimate_minimises",
    "HighwayEnv.Props.gramian_regular",
    "HighwayEnv.Props.gramian_det",
    "HighwayEnv.Props.ellipsoid_contains",
    "HighwayEnv.Props.exact_consistent",
    "HighwayEnv.Props.consistent_empty",
    "HighwayEnv.Props.polytope_in_box",
    "HighwayEnv.Props.estimated_dynamics_in_box",
    "HighwayEnv.Props.regression_needs_data",
    "HighwayEnv.Props.recorded_consistent",
    "HighwayEnv.Props.eig_correct_exists",
    "HighwayEnv.Props.polytope_misses_truth",
    "HighwayEnv.Props.regression_with_data"
   ],
   "note": "Estimate, ellipsoid, consistency test, recording and box inclusion are proved. That the confidence polytope contains the true parameter is false in the code (polytope_misses_truth): it multiplies by the inverse of the matrix of eigenvectors."
  },
  {
   "property": "C93",
   "status": "partial",
   "theorems": [
    "HighwayEnv.Props.hypotheses_kept",
    "HighwayEnv.Props.candidates_known",
    "HighwayEnv.Props.rejection_exact",
    "HighwayEnv.Props.rejection_total",
    "HighwayEnv.Props.explaining_survives",
    "HighwayEnv.Props.assumed_choice",
    "HighwayEnv.Props.null_features_reject",
    "HighwayEnv.Props.last_lane_raises",
    "HighwayEnv.Props.true_route_rejected"
   ],
   "note": "Everything is proved except that the true route is never rejected at lane transitions, which is false in the code (true_route_rejected)."
  },
  {
   "property": "C94",
   "status": "partial",
   "theorems": [
    "HighwayEnv.Props.worst_case_exact",
    "HighwayEnv.Props.worst_case_covers",
    "HighwayEnv.Props.worst_case_misses",
    "HighwayEnv.Props.worst_case_ignores_heading",
    "HighwayEnv.Props.worst_case_ignores_disabled",
    "HighwayEnv.Props.worst_case_speed",
    "HighwayEnv.Props.worst_case_speed_reverse",
    "HighwayEnv.Props.ordinary_check",
    "HighwayEnv.Props.trajectories_stored",
    "HighwayEnv.Props.crashed_interval_lags",
    "HighwayEnv.Props.partial_step_certain",
    "HighwayEnv.Props.first_step_position",
    "HighwayEnv.Props.act_needs_data",
    "HighwayEnv.Props.act_with_data",
    "HighwayEnv.Props.create_certain",
    "HighwayEnv.Props.followed_lanes",
    "HighwayEnv.Props.recentre_lateral_exact",
    "HighwayEnv.Props.recentre_heading_wrong",
    "HighwayEnv.Props.recentre_longitudinal_exact",
    "HighwayEnv.Props.recentre_front_wrong",
    "HighwayEnv.Props.interval_copy",
    "HighwayEnv.Props.first_step_encloses",
    "HighwayEnv.Props.default_step_not_enclosing",
    "HighwayEnv.Props.predictions_enclose",
    "HighwayEnv.Props.predict_lane_change",
    "HighwayEnv.Props.interval_step_never_raises"
   ],
   "note": "The worst-case collision check is exact for vehicles along the axes; it misses some oblique collisions (worst_case_misses) and ignores heading uncertainty, so robustness in general is false of the code."
  },
  {
   "property": "C95",
   "status": "proved",
   "theorems": [
    "HighwayEnv.Props.no_rear_end",
    "HighwayEnv.Props.traffic_no_rear_end",
    "HighwayEnv.Props.pair_no_rear_end",
    "HighwayEnv.Props.beyond_end_invisible"
   ],
   "note": "Discrete barrier argument. Hypotheses on vehicles with followers (not reversing, within 5 m of the lane) are needed: beyond_end_invisible shows that a leader beyond the end is not seen, and traffic_reverses (C77) that queued vehicles may reverse."
  },
  {
   "property": "C96",
   "status": "partial",
   "theorems": [
    "HighwayEnv.Props.image_current",
    "HighwayEnv.Props.images_always_current",
    "HighwayEnv.Props.rendered_step_current",
    "HighwayEnv.Props.usual_loop_current",
    "HighwayEnv.Props.two_steps_stale",
    "HighwayEnv.Props.reset_stale",
    "HighwayEnv.Props.reopened_blank",
    "HighwayEnv.Props.dummy_blank"
   ],
   "note": "The unrestricted claim is false of the code: two_steps_stale, reset_stale and reopened_blank prove the cases where render shows an old or blank picture; the other theorems prove it for image-only programs and for the usual render/step loop. What a picture looks like is not modelled (it is the scene and the camera)."
  },
  {
   "property": "C97",
   "status": "proved",
   "theorems": [
    "HighwayEnv.Props.rendering_transparent",
    "HighwayEnv.Props.closed_steps_short",
    "HighwayEnv.Props.quit_closes",
    "HighwayEnv.Props.quit_ends_step",
    "HighwayEnv.Props.copy_undisturbed"
   ],
   "note": "Exceptions raised by pygame itself are not modelled."
  },
  {
   "property": "C98",
   "status": "partial",
   "theorems": [
    "HighwayEnv.Props.key_does_action",
    "HighwayEnv.Props.up_key_raises",
    "HighwayEnv.Props.manual_ignores_actions",
    "HighwayEnv.Props.multi_ignores_keyboard",
    "HighwayEnv.Props.held_keys",
    "HighwayEnv.Props.events_move_nothing"
   ],
   "note": "The up arrow raises KeyError when lane changes are disabled (up_key_raises), so the claim that other events do nothing is false for it; everything else is proved."
  },
  {
   "property": "C99",
   "status": "proved",
   "theorems": [
    "HighwayEnv.Props.pixel_close",
    "HighwayEnv.Props.pixel_order",
    "HighwayEnv.Props.ego_centred",
    "HighwayEnv.Props.zoom_keys",
    "HighwayEnv.Props.zoom_undone",
    "HighwayEnv.Props.visible_if_in_frame",
    "HighwayEnv.Props.zoomed_in_hides",
    "HighwayEnv.Props.blit_centred",
    "HighwayEnv.Props.body_orientation",
    "HighwayEnv.Props.markings_on_lane",
    "HighwayEnv.Props.stripes_fixed",
    "HighwayEnv.Props.continuous_drawn",
    "HighwayEnv.Props.striped_drawn",
    "HighwayEnv.Props.last_metre_missing",
    "HighwayEnv.Props.crashed_red",
    "HighwayEnv.Props.object_colour",
    "HighwayEnv.Props.trail",
    "HighwayEnv.Props.body_drawn",
    "HighwayEnv.Props.heading_drawn",
    "HighwayEnv.Props.line_drawn"
   ],
   "note": "pygame primitives themselves (line rasterisation, image rotation) are modelled by their arguments and documented geometry"
  },
  {
   "property": "C100",
   "status": "partial",
   "theorems": [
    "HighwayEnv.Props.kinematics_in_space",
    "HighwayEnv.Props.occupancy_in_space",
    "HighwayEnv.Props.ttc_in_space",
    "HighwayEnv.Props.goal_in_space",
    "HighwayEnv.Props.attributes_in_space",
    "HighwayEnv.Props.agents_in_space",
    "HighwayEnv.Props.reset_kinematics_in_space",
    "HighwayEnv.Props.image_leaves_space",
    "HighwayEnv.Props.single_leaves_space",
    "HighwayEnv.Props.raw_leaves_space",
    "HighwayEnv.Props.image_content",
    "HighwayEnv.Props.undefined_space"
   ],
   "note": "Proved for normalised clipped kinematics (at least two vehicles), occupancy, time to collision, goals, attributes and several agents. False of the code for images, for vehicles_count = 1 and without normalisation, each proved as a theorem."
  },
  {
   "property": "C101",
   "status": "proved",
   "theorems": [
    "HighwayEnv.Props.configure_overlays",
    "HighwayEnv.Props.configure_latest",
    "HighwayEnv.Props.observation_types",
    "HighwayEnv.Props.occupancy_built",
    "HighwayEnv.Props.agents_observed",
    "HighwayEnv.Props.agents_observed_none",
    "HighwayEnv.Props.action_built",
    "HighwayEnv.Props.action_refused",
    "HighwayEnv.Props.declared_actions_accepted",
    "HighwayEnv.Props.reset_spaces",
    "HighwayEnv.Props.reset_kinematics_returns",
    "HighwayEnv.Props.reset_kinematics_in_space",
    "HighwayEnv.Props.observation_options",
    "HighwayEnv.Props.action_options"
   ],
   "note": "Entries of a type other than the documented one are not modelled."
  },
  {
   "property": "C102",
   "status": "proved",
   "theorems": [
    "HighwayEnv.Props.step_with_observation",
    "HighwayEnv.Props.play_episode",
    "HighwayEnv.Props.observers_irrelevant",
    "HighwayEnv.Props.observing_changes_generator_only",
    "HighwayEnv.Props.observe_quiet",
    "HighwayEnv.Props.look_again",
    "HighwayEnv.Props.default_ranges_frozen",
    "HighwayEnv.Props.serves_multi",
    "HighwayEnv.Props.kinematics_serves",
    "HighwayEnv.Props.occupancy_serves",
    "HighwayEnv.Props.play_contract",
    "HighwayEnv.Props.reset_contract",
    "HighwayEnv.Props.highway_contract"
   ],
   "note": "Observers in the loop of reset and step. Findings: default kinematics ranges depend on the road of the first observation only; order \"shuffled\" consumes the generator of the environment, so that the same seed gives another traffic."
  },
  {
   "property": "C103",
   "status": "proved",
   "theorems": [
    "HighwayEnv.Props.goal_step",
    "HighwayEnv.Props.goal_step_total",
    "HighwayEnv.Props.goal_serves",
    "HighwayEnv.Props.goal_contract",
    "HighwayEnv.Props.parking_contract",
    "HighwayEnv.Props.summon_contract",
    "HighwayEnv.Props.parking_reward_from_goals"
   ],
   "note": "For summon, compute_reward also reads the crash flag of the first agent in the current state (summon_env.py:112-125), so its reward is a function of the goals shown and of that flag; the goals-only statement is for parking."
  },
  {
   "property": "C104",
   "status": "proved",
   "theorems": [
    "HighwayEnv.Props.observed_contract",
    "HighwayEnv.Props.merge_contract",
    "HighwayEnv.Props.round_contract",
    "HighwayEnv.Props.inter_contract",
    "HighwayEnv.Props.ttc_serves",
    "HighwayEnv.Props.ttc_contract",
    "HighwayEnv.Props.merge_ttc_contract",
    "HighwayEnv.Props.highway_ttc_contract",
    "HighwayEnv.Props.play_until",
    "HighwayEnv.Props.twoWay_ttc_contract",
    "HighwayEnv.Props.planRoute_end"
   ],
   "note": "For the multi-agent intersection, provided no agent was removed by the reset itself (clear-spawning removal only concerns overlapping vehicles, see inter_reset). Two-way: within the time in which the vehicle cannot reach the end of the road, after which step may raise."
  },
  {
   "property": "C105",
   "status": "proved",
   "theorems": [
    "HighwayEnv.Props.inter_step_shared",
    "HighwayEnv.Props.shared_consequences",
    "HighwayEnv.Props.wrapper_step",
    "HighwayEnv.Props.wrapped_play",
    "HighwayEnv.Props.tuple_contract",
    "HighwayEnv.Props.wrapper_refuses",
    "HighwayEnv.Props.team_contract"
   ],
   "note": "As in C104, the reset must have removed no agent: always the case with one agent, and with up to four when no variate of the generator exceeds 6 (team_contract)."
  },
  {
   "property": "C106",
   "status": "proved",
   "theorems": [
    "HighwayEnv.Props.call_plan_route",
    "HighwayEnv.Props.call_loses",
    "HighwayEnv.Props.call_draws"
   ],
   "note": ""
  },
  {
   "property": "C107",
   "status": "partial",
   "theorems": [
    "HighwayEnv.Props.recover_keeps_partial",
    "HighwayEnv.Props.recover_raises",
    "HighwayEnv.Props.recover_not_documented",
    "HighwayEnv.Props.maximum_speed_alone_partial",
    "HighwayEnv.Props.maximum_speed_recurses"
   ],
   "note": "The documented behaviour is false of the code: for a vehicle stopped on the wrong lane recover_from_stop always raises TypeError (recover_raises), and maximum_speed with a front vehicle always ends in RecursionError (maximum_speed_recurses). The remaining cases are proved."
  },
  {
   "property": "C108",
   "status": "proved",
   "theorems": [
    "HighwayEnv.Props.lane_keeping",
    "HighwayEnv.Props.lane_keeping_aligned",
    "HighwayEnv.Props.lane_keeping_converges",
    "HighwayEnv.Props.laneError_offset",
    "HighwayEnv.Props.laneError_heading",
    "HighwayEnv.Props.straightNet_closest_near",
    "HighwayEnv.Props.lane_change_completed",
    "HighwayEnv.Props.lane_keeping_varying"
   ],
   "note": "Exact nonlinear closed loop (act then step), all saturations shown inactive in the region; region and speed range are part of the statement."
  },
  {
   "property": "C109",
   "status": "proved",
   "theorems": [
    "HighwayEnv.Props.moved_world",
    "HighwayEnv.Props.moved_vehicles",
    "HighwayEnv.Props.moved_raises",
    "HighwayEnv.Props.moved_creation",
    "HighwayEnv.Props.moved_creation_timer",
    "HighwayEnv.Props.moved_timer_differs"
   ],
   "note": "Symmetry for every scene and history; construction is characterised exactly, including the position-dependent timer."
  },
  {
   "property": "C110",
   "status": "proved",
   "theorems": [
    "HighwayEnv.Props.free_settles",
    "HighwayEnv.Props.free_settles_above",
    "HighwayEnv.Props.free_settles_linear",
    "HighwayEnv.Props.alone_rides",
    "HighwayEnv.Props.queue_in_equilibrium",
    "HighwayEnv.Props.traffic_in_equilibrium"
   ],
   "note": "Speeds within \u00b140 m/s (the maximum speed of the class); frames short compared with the target speed (hslow), which holds for the default rates; the queue theorems are for one straight lane and default parameters."
  },
  {
   "property": "C111",
   "status": "proved",
   "theorems": [
    "HighwayEnv.Props.position_along_route",
    "HighwayEnv.Props.route_continuous",
    "HighwayEnv.Props.prediction_at_constant_speed",
    "HighwayEnv.Props.straight_road_at_angle"
   ],
   "note": "Continuity for non-degenerate lanes of non-negative length; the prediction theorem is for vehicles with a non-empty route (without one, the single current lane is used)."
  },
  {
   "property": "C112",
   "status": "proved",
   "theorems": [
    "HighwayEnv.Props.lane_traffic_safe",
    "HighwayEnv.Props.lane_traffic_horizon",
    "HighwayEnv.Props.highway_lanes_parallel",
    "HighwayEnv.Props.twoWay_lanes_parallel",
    "HighwayEnv.Props.obstacle_never_hit"
   ],
   "note": "Traffic of the non-linear class with default parameters; vehicles that have a follower are assumed not to reverse (the driver model can reverse at very low speed, see C95), except in the horizon theorem, where it is proved, and for vehicles alone on their lanes (obstacle_never_hit), where it is not needed."
  },
  {
   "property": "C113",
   "status": "proved",
   "theorems": [
    "HighwayEnv.Props.follows_route",
    "HighwayEnv.Props.arrives",
    "HighwayEnv.Props.travels_alone"
   ],
   "note": "exact on the line; roads of the chain have the same number of lanes"
  },
  {
   "property": "C114",
   "status": "proved",
   "theorems": [
    "HighwayEnv.Props.junction_blind"
   ],
   "note": "the standing vehicle is a plain vehicle; the line is in direction 0, where the collision test is exact"
  },
  {
   "property": "C115",
   "status": "proved",
   "theorems": [
    "HighwayEnv.Props.step_seedless",
    "HighwayEnv.Props.episode_seedless",
    "HighwayEnv.Props.forks_of_maps",
    "HighwayEnv.Props.highway_seedless",
    "HighwayEnv.Props.twoWay_seedless",
    "HighwayEnv.Props.parking_seedless",
    "HighwayEnv.Props.merge_seedless",
    "HighwayEnv.Props.fork_any_road",
    "HighwayEnv.Props.highway_deterministic",
    "HighwayEnv.Props.merge_deterministic",
    "HighwayEnv.Props.twoWay_deterministic",
    "HighwayEnv.Props.parking_deterministic",
    "HighwayEnv.Props.summon_deterministic"
   ],
   "note": "Any map without forks, any two generators, episodes of any length; the merge environment ignores its seed completely (finding: env.seed has no effect there)."
  },
  {
   "property": "C116",
   "status": "proved",
   "theorems": [
    "HighwayEnv.Props.decision_speed",
    "HighwayEnv.Props.one_press",
    "HighwayEnv.Props.ladder_episode",
    "HighwayEnv.Props.highway_ladder",
    "HighwayEnv.Props.merge_ladder",
    "HighwayEnv.Props.twoWay_ladder",
    "HighwayEnv.Props.round_ladder"
   ],
   "note": "The speed after every decision is within a quarter rung of the level reached by counting presses; decision_speed gives the exact speed after one decision. The first roundabout reset is excluded: its ego is built before the class attributes are assigned (C62)."
  },
  {
   "property": "C117",
   "status": "proved",
   "theorems": [
    "HighwayEnv.Props.only_ahead",
    "HighwayEnv.Props.ahead_frame",
    "HighwayEnv.Props.decides_from_ahead",
    "HighwayEnv.Props.queue_only_ahead",
    "HighwayEnv.Props.leader_as_if_alone"
   ],
   "note": "Two-run (relational) theorem; for the single-lane queue the no-collision hypothesis is discharged by C95."
  },
  {
   "property": "C118",
   "status": "proved",
   "theorems": [
    "HighwayEnv.Props.joint_simultaneous",
    "HighwayEnv.Props.joint_order",
    "HighwayEnv.Props.joint_frame",
    "HighwayEnv.Props.joint_fork"
   ],
   "note": "At forks without a route the agents draw in turn from the shared generator, so the order matters there (joint_fork)."
  },
  {
   "property": "C119",
   "status": "proved",
   "theorems": [
    "HighwayEnv.Props.turned_frame",
    "HighwayEnv.Props.turned_world",
    "HighwayEnv.Props.turned_far",
    "HighwayEnv.Props.turned_without_circles",
    "HighwayEnv.Props.turned_vehicles",
    "HighwayEnv.Props.turned_centre",
    "HighwayEnv.Props.eighth_turn_differs",
    "HighwayEnv.Props.turned_decision",
    "HighwayEnv.Props.turned_episode",
    "HighwayEnv.Props.highway_directionFree",
    "HighwayEnv.Props.twoway_directionFree",
    "HighwayEnv.Props.withoutCircles_of_network",
    "HighwayEnv.Props.highway_turned",
    "HighwayEnv.Props.twoway_turned",
    "HighwayEnv.Props.turned_description",
    "HighwayEnv.Props.turned_close",
    "HighwayEnv.Props.turned_ttc",
    "HighwayEnv.Props.turned_mdp",
    "HighwayEnv.Props.turned_observation",
    "HighwayEnv.Props.merge_not_directionFree",
    "HighwayEnv.Props.turned_decision_placed",
    "HighwayEnv.Props.turned_episode_placed",
    "HighwayEnv.Props.roundabout_directionFree",
    "HighwayEnv.Props.env_frame_moves",
    "HighwayEnv.Props.decision_moves",
    "HighwayEnv.Props.placedAlong_far",
    "HighwayEnv.Props.parking_not_directionFree"
   ],
   "note": "Frames and decisions that succeed are compared (exceptions only for to_dict, TTC and MDP). turned_centre shows why the centre of a circle is excluded; eighth_turn_differs shows that the collision test of utils.py (which rotates the wrong way) is not invariant under a turn of 45\u00b0; merge_not_directionFree: the merge environment ends at x > 370. turned_observation is for unnormalised, unshuffled rows of the five default features (normalisation scales x and y differently)."
  },
  {
   "property": "C120",
   "status": "proved",
   "theorems": [
    "HighwayEnv.Props.moved_decision",
    "HighwayEnv.Props.moved_episode",
    "HighwayEnv.Props.highway_positionFree",
    "HighwayEnv.Props.twoway_positionFree",
    "HighwayEnv.Props.roundabout_positionFree",
    "HighwayEnv.Props.parking_positionFree",
    "HighwayEnv.Props.merge_not_positionFree",
    "HighwayEnv.Props.moved_traffic",
    "HighwayEnv.Props.moved_observation",
    "HighwayEnv.Props.moved_observation_raises",
    "HighwayEnv.Props.moved_occupancy",
    "HighwayEnv.Props.moved_ttc_grid",
    "HighwayEnv.Props.moved_ttc",
    "HighwayEnv.Props.moved_mdp",
    "HighwayEnv.Props.moved_full_step",
    "HighwayEnv.Props.moved_play",
    "HighwayEnv.Props.positionFree_at",
    "HighwayEnv.Props.intersection_positionFree",
    "HighwayEnv.Props.intersection_not_positionFree",
    "HighwayEnv.Props.entering_clock",
    "HighwayEnv.Props.summon_positionFree",
    "HighwayEnv.Props.merge_positionFree",
    "HighwayEnv.Props.moved_lane_keeping",
    "HighwayEnv.Props.moved_lane_keeping_along",
    "HighwayEnv.Props.moved_keeping_run"
   ],
   "note": "Extends C109 (the simulation) to what an agent receives. The intersection environment is not covered: it creates vehicles during the episode and the code seeds their lane-change timers with absolute positions (C109, moved_creation)."
  },
  {
   "property": "C121",
   "status": "proved",
   "theorems": [
    "HighwayEnv.Props.mirrored_frame",
    "HighwayEnv.Props.mirrored_world",
    "HighwayEnv.Props.mirrored_vehicles",
    "HighwayEnv.Props.mirrored_lane",
    "HighwayEnv.Props.mirrored_opposite",
    "HighwayEnv.Props.mirrored_backwards",
    "HighwayEnv.Props.mirrored_run",
    "HighwayEnv.Props.mirrored_traffic",
    "HighwayEnv.Props.looksAlong_decided",
    "HighwayEnv.Props.mirrored_highway",
    "HighwayEnv.Props.mirrored_merge"
   ],
   "note": "mirrored_frame/mirrored_run: all vehicle classes but the dynamic bicycle, with the two conditions (image along lanes, not facing exactly backwards) on the states passed through; mirrored_world (vehicles driven by commands, straight/sinusoidal lanes) and mirrored_traffic, mirrored_highway, mirrored_merge (aligned roads, non-linear controllers and IDM/MOBIL traffic) have conditions on the first state only. mirrored_opposite and mirrored_backwards show that the two conditions are needed."
  },
  {
   "property": "C122",
   "status": "proved",
   "theorems": [
    "HighwayEnv.Props.mirrored_observation",
    "HighwayEnv.Props.mirrored_default_ranges",
    "HighwayEnv.Props.mirrored_description",
    "HighwayEnv.Props.mirrored_close",
    "HighwayEnv.Props.mirrored_ttc",
    "HighwayEnv.Props.mirrored_mdp",
    "HighwayEnv.Props.mirrored_goal"
   ],
   "note": "Any features and options of the kinematics observation; ranges of sideways features must be centred on 0 (the default ones are: mirrored_default_ranges). Occupancy grids and lidar are not included: their cell and ray indices are rounded towards one side."
  },
  {
   "property": "C123",
   "status": "proved",
   "theorems": [
    "HighwayEnv.Props.mirrored_decision",
    "HighwayEnv.Props.mirrored_episode",
    "HighwayEnv.Props.mirrored_highway_episode",
    "HighwayEnv.Props.mirrored_merge_episode",
    "HighwayEnv.Props.highway_sideFree",
    "HighwayEnv.Props.twoway_sideFree",
    "HighwayEnv.Props.merge_sideFree",
    "HighwayEnv.Props.mirrored_core",
    "HighwayEnv.Props.parking_sideFree",
    "HighwayEnv.Props.mirrored_decision_plain",
    "HighwayEnv.Props.mirrored_parking_episode",
    "HighwayEnv.Props.uneven_steering",
    "HighwayEnv.Props.summon_sideFree",
    "HighwayEnv.Props.roundabout_sideFree"
   ],
   "note": "Any class that does not tell left from right (SideFree: highway, merge, two-way, parking, summon, and roundabout with meta actions); whole episodes after any reset for highway, merge and parking (without dynamic bicycles). The two-way, summon and roundabout maps are not one-way (a vehicle may face backwards, where steering has a fixed sign: mirrored_backwards), so for them the class property only. uneven_steering: the condition on the steering range is necessary."
  },
  {
   "property": "C124",
   "status": "proved",
   "theorems": [
    "HighwayEnv.Props.mirrored_bicycle",
    "HighwayEnv.Props.mirrored_bicycle_step",
    "HighwayEnv.Props.bicycle_reverses_askew",
    "HighwayEnv.Props.bicycle_reverses_unlike",
    "HighwayEnv.Props.bicycle_backs_out"
   ],
   "note": "Symmetry wherever it holds (speed above -1 m/s, or sliding at both axles), and the failure for every bicycle reversing straight: a finding (arctan2 with a negative second argument gives half a turn instead of a slip angle). Signed zeros of floats are not modelled."
  }
 ]
}