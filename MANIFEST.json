{
 "claims": [
  {
   "property": "C01",
   "status": "proved",
   "theorems": [
    "SAD.C01_applied_control_saturated",
    "SAD.C01_step_decided_by_applied_control",
    "SAD.C01_saturated_action_equivalent",
    "SAD.C01_in_range_unchanged",
    "SAD.C01_float32_scalar_limit_violated"
   ],
   "note": ""
  },
  {
   "property": "C02",
   "status": "proved",
   "theorems": [
    "SAD.C02_warning_iff",
    "SAD.C02_warning_iff_broadcast",
    "SAD.C02_warning_iff_changed"
   ],
   "note": ""
  },
  {
   "property": "C03",
   "status": "proved",
   "theorems": [
    "SAD.C03_nan_not_clipped",
    "SAD.C03_nan_not_warned"
   ],
   "note": ""
  },
  {
   "property": "C04",
   "status": "proved",
   "theorems": [
    "SAD.C04_dict_action",
    "SAD.C04_dict_order_irrelevant"
   ],
   "note": ""
  },
  {
   "property": "C05",
   "status": "proved",
   "theorems": [
    "SAD.C05_unknown_actuator",
    "SAD.C05_dict_without_map",
    "SAD.C05_unsupported_action"
   ],
   "note": ""
  },
  {
   "property": "C06",
   "status": "proved",
   "theorems": [
    "SAD.C06_default_action",
    "SAD.C06_config_immutable"
   ],
   "note": ""
  },
  {
   "property": "C07",
   "status": "proved",
   "theorems": [
    "SAD.C07_failed_step_atomic",
    "SAD.C07_failing_history"
   ],
   "note": ""
  },
  {
   "property": "C08",
   "status": "proved",
   "theorems": [
    "SAD.C08_state_limits",
    "SAD.C08_nan_not_caught"
   ],
   "note": ""
  },
  {
   "property": "C09",
   "status": "proved",
   "theorems": [
    "SAD.C09_wrapped_range",
    "SAD.C09_wrapped_range_rounded",
    "SAD.C09_wrapped_range_rounded_centre",
    "SAD.C09_both_ends_attained"
   ],
   "note": "Exact arithmetic is assumed in C09_wrapped_range; the other theorems do not assume it."
  },
  {
   "property": "C10",
   "status": "proved",
   "theorems": [
    "SAD.C10_wrap_same_angle",
    "SAD.C10_wrap_identity_in_range",
    "SAD.C10_wrap_complete",
    "SAD.C10_unwrapped_untouched",
    "SAD.C10_step"
   ],
   "note": "Exact arithmetic is assumed in C10_wrap_same_angle, C10_wrap_identity_in_range, C10_wrap_complete, C10_step; the other theorems do not assume it."
  },
  {
   "property": "C11",
   "status": "proved",
   "theorems": [
    "SAD.C11_wrap_angle_shifted",
    "SAD.C11_wrap_preserves_iff",
    "SAD.C11_drift",
    "SAD.C11_step"
   ],
   "note": ""
  },
  {
   "property": "C12",
   "status": "proved",
   "theorems": [
    "SAD.C12_wrapped_within_limits",
    "SAD.C12_wrapped_within_limits_rounded",
    "SAD.C12_limit_violated_by_wrap"
   ],
   "note": "Exact arithmetic is assumed in C12_wrapped_within_limits; the other theorems do not assume it."
  },
  {
   "property": "C13",
   "status": "proved",
   "theorems": [
    "SAD.C13_state_dot_limits",
    "SAD.C13_violated_when_zero_excluded"
   ],
   "note": ""
  },
  {
   "property": "C14",
   "status": "proved",
   "theorems": [
    "SAD.C14_no_outward_derivative",
    "SAD.C14_limited_derivative",
    "SAD.C14_pinned_element_outward"
   ],
   "note": ""
  },
  {
   "property": "C15",
   "status": "proved",
   "theorems": [
    "SAD.C15_euler_step",
    "SAD.C15_not_end_derivative"
   ],
   "note": ""
  },
  {
   "property": "C16",
   "status": "proved",
   "theorems": [
    "SAD.C16_rk45_step",
    "SAD.C16_not_derivative_of_reported_state"
   ],
   "note": ""
  },
  {
   "property": "C17",
   "status": "proved",
   "theorems": [
    "SAD.C17_supported_methods",
    "SAD.C17_unsupported_method",
    "SAD.C17_construction"
   ],
   "note": ""
  },
  {
   "property": "C18",
   "status": "proved",
   "theorems": [
    "SAD.C18_trajectory_stored",
    "SAD.C18_stale_trajectory",
    "SAD.C18_sample_times",
    "SAD.C18_sample_times_increasing",
    "SAD.C18_sampled_step"
   ],
   "note": "Exact arithmetic is assumed in C18_sample_times, C18_sample_times_increasing, C18_sampled_step; the other theorems do not assume it."
  },
  {
   "property": "C19",
   "status": "proved",
   "theorems": [
    "SAD.C19_zero_step"
   ],
   "note": ""
  },
  {
   "property": "C20",
   "status": "proved",
   "theorems": [
    "SAD.C20_jax_step",
    "SAD.C20_jax_differs"
   ],
   "note": ""
  },
  {
   "property": "C21",
   "status": "proved",
   "theorems": [
    "SAD.C21_affine",
    "SAD.C21_superposition",
    "SAD.C21_wrong_length"
   ],
   "note": "Exact arithmetic is assumed in C21_affine, C21_superposition; the other theorems do not assume it."
  },
  {
   "property": "C22",
   "status": "proved",
   "theorems": [
    "SAD.C22_shape_check",
    "SAD.C22_construction"
   ],
   "note": ""
  },
  {
   "property": "C23",
   "status": "proved",
   "theorems": [
    "SAD.C23_superposition"
   ],
   "note": ""
  },
  {
   "property": "C24",
   "status": "proved",
   "theorems": [
    "SAD.C24_only_steps_and_assignments",
    "SAD.C24_default_control",
    "SAD.C24_step_writes_nothing",
    "SAD.C24_assignment_copies",
    "SAD.C24_read_is_new",
    "SAD.C24_values_suffice",
    "SAD.C24_default_handle_leaks",
    "SAD.C24_state_dot_leaks"
   ],
   "note": ""
  },
  {
   "property": "C25",
   "status": "proved",
   "theorems": [
    "SAD.C25_dynamics",
    "SAD.C25_entity"
   ],
   "note": ""
  },
  {
   "property": "C26",
   "status": "proved",
   "theorems": [
    "SAD.C26_axes_independent"
   ],
   "note": ""
  },
  {
   "property": "C27",
   "status": "proved",
   "theorems": [
    "SAD.C27_dict_only_x"
   ],
   "note": ""
  },
  {
   "property": "C28",
   "status": "proved",
   "theorems": [
    "SAD.C28_not_constructible",
    "SAD.C28_subclass_constructible",
    "SAD.C28_others_constructible",
    "SAD.C28_never_equal",
    "SAD.C28_equality_not_symmetric"
   ],
   "note": ""
  },
  {
   "property": "C29",
   "status": "proved",
   "theorems": [
    "SAD.C29_equations",
    "SAD.C29_zero_mass",
    "SAD.C29_closed_form"
   ],
   "note": ""
  },
  {
   "property": "C30",
   "status": "proved",
   "theorems": [
    "SAD.C30_decoupled"
   ],
   "note": ""
  },
  {
   "property": "C31",
   "status": "proved",
   "theorems": [
    "SAD.C31_step",
    "SAD.C31_conserved"
   ],
   "note": ""
  },
  {
   "property": "C32",
   "status": "proved",
   "theorems": [
    "SAD.C32_energy_rate",
    "SAD.C32_energy_along_solutions"
   ],
   "note": ""
  },
  {
   "property": "C33",
   "status": "proved",
   "theorems": [
    "SAD.C33_translation",
    "SAD.C33_equilibrium"
   ],
   "note": ""
  },
  {
   "property": "C34",
   "status": "proved",
   "theorems": [
    "SAD.C34_relative",
    "SAD.C34_errors"
   ],
   "note": "Exact arithmetic is assumed in C34_relative; the other theorems do not assume it."
  },
  {
   "property": "C35",
   "status": "proved",
   "theorems": [
    "SAD.C35_body_frame_thrust",
    "SAD.C35_magnitude",
    "SAD.C35_aligned"
   ],
   "note": ""
  },
  {
   "property": "C36",
   "status": "proved",
   "theorems": [
    "SAD.C36_angular_acceleration",
    "SAD.C36_angular_velocity",
    "SAD.C36_theta_range",
    "SAD.C36_theta_range_rounded",
    "SAD.C36_effective_limits"
   ],
   "note": "Exact arithmetic is assumed in C36_theta_range, C36_effective_limits; the other theorems do not assume it."
  },
  {
   "property": "C37",
   "status": "proved",
   "theorems": [
    "SAD.C37_quaternion",
    "SAD.C37_double_cover"
   ],
   "note": ""
  },
  {
   "property": "C38",
   "status": "proved",
   "theorems": [
    "SAD.C38_stationary",
    "SAD.C38_euler_growth",
    "SAD.C38_solutions"
   ],
   "note": ""
  },
  {
   "property": "C39",
   "status": "proved",
   "theorems": [
    "SAD.C39_hamilton",
    "SAD.C39_hamilton_laws",
    "SAD.C39_apply",
    "SAD.C39_inner",
    "SAD.C39_matrix",
    "SAD.C39_compose"
   ],
   "note": ""
  },
  {
   "property": "C40",
   "status": "proved",
   "theorems": [
    "SAD.C40_kinematics"
   ],
   "note": ""
  },
  {
   "property": "C41",
   "status": "proved",
   "theorems": [
    "SAD.C41_rates",
    "SAD.C41_off_diagonal",
    "SAD.C41_solutions"
   ],
   "note": "Exact arithmetic is assumed in C41_rates, C41_solutions; the other theorems do not assume it."
  },
  {
   "property": "C42",
   "status": "proved",
   "theorems": [
    "SAD.C42_default_zero",
    "SAD.C42_orientation_raises",
    "SAD.C42_stays_zero",
    "SAD.C42_thrust_inert"
   ],
   "note": ""
  },
  {
   "property": "C43",
   "status": "proved",
   "theorems": [
    "SAD.C43_angular_velocity",
    "SAD.C43_effective_limits"
   ],
   "note": "Exact arithmetic is assumed in C43_effective_limits; the other theorems do not assume it."
  },
  {
   "property": "C44",
   "status": "proved",
   "theorems": [
    "SAD.C44_point_mass",
    "SAD.C44_planar"
   ],
   "note": ""
  },
  {
   "property": "C45",
   "status": "proved",
   "theorems": [
    "SAD.C45_actions_ignored",
    "SAD.C45_motion",
    "SAD.C45_always_steps"
   ],
   "note": "Exact arithmetic is assumed in C45_motion, C45_always_steps; the other theorems do not assume it."
  },
  {
   "property": "C46",
   "status": "proved",
   "theorems": [
    "SAD.C46_equality"
   ],
   "note": ""
  },
  {
   "property": "C47",
   "status": "proved",
   "theorems": [
    "SAD.C47_single_2d",
    "SAD.C47_single_3d",
    "SAD.C47_velocity_2d",
    "SAD.C47_velocity_3d"
   ],
   "note": "Exact arithmetic is assumed in C47_velocity_2d, C47_velocity_3d; the other theorems do not assume it."
  },
  {
   "property": "C48",
   "status": "proved",
   "theorems": [
    "SAD.C48_speed_2d",
    "SAD.C48_speed_3d",
    "SAD.C48_heading",
    "SAD.C48_heading_rounded",
    "SAD.C48_gamma_roll",
    "SAD.C48_gamma_roll_rounded"
   ],
   "note": "Exact arithmetic is assumed in C48_heading, C48_gamma_roll; the other theorems do not assume it."
  },
  {
   "property": "C49",
   "status": "proved",
   "theorems": [
    "SAD.C49_straight_2d",
    "SAD.C49_straight_3d"
   ],
   "note": ""
  },
  {
   "property": "C50",
   "status": "proved",
   "theorems": [
    "SAD.C50_turn_rate"
   ],
   "note": ""
  },
  {
   "property": "C51",
   "status": "proved",
   "theorems": [
    "SAD.C51_translation_2d",
    "SAD.C51_translation_3d"
   ],
   "note": ""
  },
  {
   "property": "C52",
   "status": "proved",
   "theorems": [
    "SAD.C52_single_2d",
    "SAD.C52_single_3d",
    "SAD.C52_along_2d",
    "SAD.C52_along_3d",
    "SAD.C52_acceleration_2d",
    "SAD.C52_acceleration_3d",
    "SAD.C52_acceleration_standstill",
    "SAD.C52_normal_part_missing"
   ],
   "note": "Exact arithmetic is assumed in C52_acceleration_2d, C52_acceleration_3d, C52_acceleration_standstill, C52_normal_part_missing; the other theorems do not assume it."
  },
  {
   "property": "C53",
   "status": "proved",
   "theorems": [
    "SAD.C53_symmetric",
    "SAD.C53_other_class",
    "SAD.C53_implies_position_velocity",
    "SAD.C53_transitive",
    "SAD.C53_ignores_everything_else",
    "SAD.C53_reflexive_cwh",
    "SAD.C53_reflexive_rot2d",
    "SAD.C53_reflexive_sixDof",
    "SAD.C53_reflexive_dubins2d",
    "SAD.C53_reflexive_dubins3d"
   ],
   "note": "Exact arithmetic is assumed in C53_reflexive_rot2d, C53_reflexive_sixDof, C53_reflexive_dubins2d, C53_reflexive_dubins3d; the other theorems do not assume it."
  },
  {
   "property": "C54",
   "status": "proved",
   "theorems": [
    "SAD.C54_wrong_dimension",
    "SAD.C54_same_magnitude",
    "SAD.C54_export_import",
    "SAD.C54_integrator_rejects_export"
   ],
   "note": "Exact arithmetic is assumed in C54_same_magnitude; the other theorems do not assume it."
  },
  {
   "property": "C55",
   "status": "proved",
   "theorems": [
    "SAD.C55_accepted_keywords",
    "SAD.C55_initial_state"
   ],
   "note": ""
  },
  {
   "property": "C56",
   "status": "proved",
   "theorems": [
    "SAD.C56_number",
    "SAD.C56_array",
    "SAD.C56_list",
    "SAD.C56_list_never_values",
    "SAD.C56_other",
    "SAD.C56_spacecraft_float_lists"
   ],
   "note": ""
  },
  {
   "property": "C57",
   "status": "proved",
   "theorems": [
    "SAD.Aero.C57_truncates",
    "SAD.Aero.C57_rejects"
   ],
   "note": ""
  },
  {
   "property": "C58",
   "status": "proved",
   "theorems": [
    "SAD.Aero.C58_indices",
    "SAD.Aero.C58_no_index_error",
    "SAD.Aero.C58_defined",
    "SAD.Aero.C58_formats"
   ],
   "note": ""
  },
  {
   "property": "C59",
   "status": "proved",
   "theorems": [
    "SAD.Aero.C59_two_way",
    "SAD.Aero.C59_one_way",
    "SAD.Aero.C59_grid_points",
    "SAD.Aero.C59_between",
    "SAD.Aero.C59_extrapolates",
    "SAD.Aero.C59_data"
   ],
   "note": "Exact arithmetic is assumed in C59_two_way, C59_one_way, C59_grid_points, C59_between, C59_extrapolates; the other theorems do not assume it."
  },
  {
   "property": "C60",
   "status": "proved",
   "theorems": [
    "SAD.Aero.C60_odd",
    "SAD.Aero.C60_odd_rounded"
   ],
   "note": "Exact arithmetic is assumed in C60_odd; the other theorems do not assume it."
  },
  {
   "property": "C61",
   "status": "proved",
   "theorems": [
    "SAD.Aero.C61_range",
    "SAD.Aero.C61_increasing",
    "SAD.Aero.C61_jump"
   ],
   "note": ""
  },
  {
   "property": "C62",
   "status": "proved",
   "theorems": [
    "SAD.Aero.C62_rtau",
    "SAD.Aero.C62_towards",
    "SAD.Aero.C62_invariant"
   ],
   "note": ""
  },
  {
   "property": "C63",
   "status": "proved",
   "theorems": [
    "SAD.Aero.C63_air_data",
    "SAD.Aero.C63_ceiling"
   ],
   "note": ""
  },
  {
   "property": "C64",
   "status": "proved",
   "theorems": [
    "SAD.Aero.C64_value",
    "SAD.Aero.C64_corners",
    "SAD.Aero.C64_continuous",
    "SAD.Aero.C64_negative_altitude",
    "SAD.Aero.C64_data"
   ],
   "note": "Exact arithmetic is assumed in C64_value, C64_corners, C64_continuous, C64_negative_altitude; the other theorems do not assume it."
  },
  {
   "property": "C65",
   "status": "proved",
   "theorems": [
    "SAD.Aero.C65_within",
    "SAD.Aero.C65_law",
    "SAD.Aero.C65_trim",
    "SAD.Aero.C65_integrators",
    "SAD.Aero.C65_gains",
    "SAD.Aero.C65_lengths",
    "SAD.Aero.C65_double",
    "SAD.Aero.C65_overflow"
   ],
   "note": "Exact arithmetic is assumed in C65_law, C65_trim, C65_integrators; the other theorems do not assume it."
  },
  {
   "property": "C66",
   "status": "proved",
   "theorems": [
    "SAD.Aero.C66_defined",
    "SAD.Aero.C66_body_acceleration",
    "SAD.Aero.C66_newton",
    "SAD.Aero.C66_outputs"
   ],
   "note": ""
  },
  {
   "property": "C67",
   "status": "proved",
   "theorems": [
    "SAD.Aero.C67_body_rates",
    "SAD.Aero.C67_attitude",
    "SAD.Aero.C67_position",
    "SAD.Aero.C67_speed",
    "SAD.Aero.C67_vertical"
   ],
   "note": ""
  },
  {
   "property": "C68",
   "status": "proved",
   "theorems": [
    "SAD.Aero.Obj.C68_freeze",
    "SAD.Aero.Obj.C68_rejected",
    "SAD.Aero.Obj.C68_assign",
    "SAD.Aero.Obj.C68_no_new_attributes",
    "SAD.Aero.Obj.C68_same_attributes",
    "SAD.Aero.Obj.C68_thaw"
   ],
   "note": ""
  },
  {
   "property": "C69",
   "status": "proved",
   "theorems": [
    "SAD.Aero.C69_finished_idle",
    "SAD.Aero.C69_raises",
    "SAD.Aero.C69_finished_iff",
    "SAD.Aero.C69_asserts",
    "SAD.Aero.C69_default",
    "SAD.Aero.C69_run",
    "SAD.Aero.C69_time",
    "SAD.Aero.C69_calls",
    "SAD.Aero.C69_constant",
    "SAD.Aero.C69_dense",
    "SAD.Aero.C69_stuck",
    "SAD.Aero.C69_dense_stale"
   ],
   "note": "Exact arithmetic is assumed in C69_default, C69_run, C69_time, C69_calls, C69_constant, C69_dense, C69_dense_stale; the other theorems do not assume it."
  },
  {
   "property": "C70",
   "status": "proved",
   "theorems": [
    "SAD.Aero.C70_verify",
    "SAD.Aero.C70_speed_ignored",
    "SAD.Aero.C70_one_sided",
    "SAD.Aero.C70_no_controller",
    "SAD.Aero.C70_empty"
   ],
   "note": ""
  },
  {
   "property": "C71",
   "status": "proved",
   "theorems": [
    "SAD.Aero.C71_columns",
    "SAD.Aero.C71_defined",
    "SAD.Aero.C71_reassemble",
    "SAD.Aero.C71_single",
    "SAD.Aero.C71_out_of_range",
    "SAD.Aero.C71_minus_one"
   ],
   "note": ""
  },
  {
   "property": "C72",
   "status": "proved",
   "theorems": [
    "SAD.Aero.C72_asserts",
    "SAD.Aero.C72_lengths",
    "SAD.Aero.C72_default",
    "SAD.Aero.C72_controlled"
   ],
   "note": "Exact arithmetic is assumed in C72_controlled; the other theorems do not assume it."
  },
  {
   "property": "C73",
   "status": "proved",
   "theorems": [
    "SAD.Aero.C73_only",
    "SAD.Aero.C73_idempotent",
    "SAD.Aero.C73_orient",
    "SAD.Aero.C73_default",
    "SAD.Aero.C73_candidate",
    "SAD.Aero.C73_cost",
    "SAD.Aero.C73_turn",
    "SAD.Aero.C73_level",
    "SAD.Aero.C73_climb",
    "SAD.Aero.C73_pull_up"
   ],
   "note": "Exact arithmetic is assumed in C73_cost, C73_turn, C73_level, C73_climb, C73_pull_up; the other theorems do not assume it."
  },
  {
   "property": "C74",
   "status": "proved",
   "theorems": [
    "SAD.C74_named_actuators",
    "SAD.C74_unknown_actuator",
    "SAD.C74_no_action",
    "SAD.C74_sun"
   ],
   "note": ""
  },
  {
   "property": "C75",
   "status": "proved",
   "theorems": [
    "SAD.Aero.C75_energy_rate",
    "SAD.Aero.C75_loses_energy"
   ],
   "note": ""
  },
  {
   "property": "C76",
   "status": "proved",
   "theorems": [
    "SAD.Aero.C76_solvable",
    "SAD.Aero.C76_rotation",
    "SAD.Aero.C76_no_moment"
   ],
   "note": "Exact arithmetic is assumed in C76_rotation, C76_no_moment; the other theorems do not assume it."
  },
  {
   "property": "C77",
   "status": "proved",
   "theorems": [
    "SAD.Aero.C77_position",
    "SAD.Aero.C77_throttle",
    "SAD.Aero.C77_heading",
    "SAD.Aero.C77_engine",
    "SAD.Aero.C77_turned"
   ],
   "note": "Exact arithmetic is assumed in C77_turned; the other theorems do not assume it."
  },
  {
   "property": "C78",
   "status": "proved",
   "theorems": [
    "SAD.Aero.C78_symmetric",
    "SAD.Aero.C78_gyroscopic"
   ],
   "note": ""
  },
  {
   "property": "C79",
   "status": "proved",
   "theorems": [
    "SAD.Aero.C79_nan_surfaces",
    "SAD.Aero.C79_nan_state",
    "SAD.Aero.C79_nan_stevens",
    "SAD.Aero.C79_nan_feedback",
    "SAD.Aero.C79_hard_over",
    "SAD.Aero.C79_limits",
    "SAD.Aero.C79_silent"
   ],
   "note": "Exact arithmetic is assumed in C79_limits, C79_silent; the other theorems do not assume it."
  },
  {
   "property": "C80",
   "status": "proved",
   "theorems": [
    "SAD.C80_one_element",
    "SAD.C80_wrong_length",
    "SAD.C80_point_mass"
   ],
   "note": ""
  },
  {
   "property": "C81",
   "status": "proved",
   "theorems": [
    "SAD.C81_linear",
    "SAD.C81_cwh",
    "SAD.C81_coasting",
    "SAD.C81_converges"
   ],
   "note": ""
  },
  {
   "property": "C82",
   "status": "proved",
   "theorems": [
    "SAD.C82_nose_3d",
    "SAD.C82_nose_2d",
    "SAD.C82_bank",
    "SAD.C82_thrust_planar",
    "SAD.C82_thrust_sixdof",
    "SAD.C82_others"
   ],
   "note": ""
  },
  {
   "property": "C83",
   "status": "proved",
   "theorems": [
    "SAD.C83_failure_ignored",
    "SAD.C83_short_step"
   ],
   "note": "Exact arithmetic is assumed in C83_short_step; the other theorems do not assume it."
  },
  {
   "property": "C84",
   "status": "proved",
   "theorems": [
    "SAD.C84_linear",
    "SAD.C84_cwh"
   ],
   "note": ""
  },
  {
   "property": "C85",
   "status": "proved",
   "theorems": [
    "SAD.C85_thrust",
    "SAD.C85_coasting"
   ],
   "note": ""
  },
  {
   "property": "C86",
   "status": "proved",
   "theorems": [
    "SAD.C86_thrust",
    "SAD.C86_coasting"
   ],
   "note": ""
  },
  {
   "property": "C87",
   "status": "proved",
   "theorems": [
    "SAD.C87_reach",
    "SAD.C87_sharp",
    "SAD.C87_controllable",
    "SAD.C87_along_track"
   ],
   "note": ""
  },
  {
   "property": "C88",
   "status": "proved",
   "theorems": [
    "SAD.C88_turn_2d",
    "SAD.C88_full_circle",
    "SAD.C88_turn_3d"
   ],
   "note": ""
  },
  {
   "property": "C89",
   "status": "proved",
   "theorems": [
    "SAD.C89_dormand_prince",
    "SAD.C89_error_controlled"
   ],
   "note": ""
  },
  {
   "property": "C90",
   "status": "proved",
   "theorems": [
    "SAD.C90_sampled_motion"
   ],
   "note": ""
  },
  {
   "property": "C91",
   "status": "proved",
   "theorems": [
    "SAD.C91_returns",
    "SAD.C91_point_mass",
    "SAD.C91_spacecraft",
    "SAD.C91_dubins2d",
    "SAD.C91_rotational",
    "SAD.C91_returns_layers",
    "SAD.C91_sixdof"
   ],
   "note": ""
  },
  {
   "property": "C92",
   "status": "proved",
   "theorems": [
    "SAD.C92_spacecraft_nan",
    "SAD.C92_point_mass_nan",
    "SAD.C92_spacecraft_nan_at_rest",
    "SAD.C92_nonfinite_state",
    "SAD.C92_zero_duration_samples"
   ],
   "note": "Exact arithmetic is assumed in C92_spacecraft_nan, C92_point_mass_nan, C92_spacecraft_nan_at_rest, C92_zero_duration_samples; the other theorems do not assume it."
  },
  {
   "property": "C93",
   "status": "proved",
   "theorems": [
    "SAD.C93_rotational_derivative",
    "SAD.C93_rotational_step",
    "SAD.C93_rotational_resolution",
    "SAD.C93_sixdof_derivative",
    "SAD.C93_models_disagree"
   ],
   "note": ""
  },
  {
   "property": "C94",
   "status": "proved",
   "theorems": [
    "SAD.C94_rotation_2d",
    "SAD.C94_mirror_2d",
    "SAD.C94_rotation_3d",
    "SAD.C94_mirror_3d"
   ],
   "note": ""
  },
  {
   "property": "C95",
   "status": "proved",
   "theorems": [
    "SAD.C95_no_time",
    "SAD.C95_nan",
    "SAD.C95_error_controlled",
    "SAD.C95_rotation",
    "SAD.C95_limits",
    "SAD.C95_sun"
   ],
   "note": "Exact arithmetic is assumed in C95_error_controlled, C95_rotation, C95_limits, C95_sun; the other theorems do not assume it."
  },
  {
   "property": "C96",
   "status": "proved",
   "theorems": [
    "SAD.C96_returns",
    "SAD.C96_rotation",
    "SAD.C96_sun"
   ],
   "note": ""
  },
  {
   "property": "C97",
   "status": "proved",
   "theorems": [
    "SAD.C97_spin"
   ],
   "note": ""
  },
  {
   "property": "C98",
   "status": "proved",
   "theorems": [
    "SAD.C98_converges",
    "SAD.C98_exists",
    "SAD.C98_unique",
    "SAD.C98_limit"
   ],
   "note": ""
  },
  {
   "property": "C99",
   "status": "proved",
   "theorems": [
    "SAD.C99_tracks",
    "SAD.C99_dubins2d",
    "SAD.C99_dubins3d",
    "SAD.C99_rot2d",
    "SAD.C99_sixdof",
    "SAD.C99_stretches"
   ],
   "note": ""
  },
  {
   "property": "C100",
   "status": "proved",
   "theorems": [
    "SAD.Aero.C100_power",
    "SAD.Aero.C100_moved",
    "SAD.Aero.C100_distance"
   ],
   "note": ""
  },
  {
   "property": "C101",
   "status": "proved",
   "theorems": [
    "SAD.C101_terminal",
    "SAD.C101_bounded",
    "SAD.C101_coast",
    "SAD.C101_euler",
    "SAD.C101_unstable"
   ],
   "note": ""
  },
  {
   "property": "C102",
   "status": "proved",
   "theorems": [
    "SAD.C102_independent",
    "SAD.C102_library",
    "SAD.C102_shared_trajectory",
    "SAD.C102_registered"
   ],
   "note": ""
  },
  {
   "property": "C103",
   "status": "proved",
   "theorems": [
    "SAD.C103_euler",
    "SAD.C103_rk45",
    "SAD.C103_stall"
   ],
   "note": ""
  },
  {
   "property": "C104",
   "status": "proved",
   "theorems": [
    "SAD.C104_euler_2d",
    "SAD.C104_euler_3d",
    "SAD.C104_accelerated_2d",
    "SAD.C104_overspeed",
    "SAD.C104_full_speed_2d",
    "SAD.C104_span_2d"
   ],
   "note": "Exact arithmetic is assumed in C104_euler_2d, C104_euler_3d, C104_accelerated_2d, C104_overspeed, C104_full_speed_2d; the other theorems do not assume it."
  },
  {
   "property": "C105",
   "status": "proved",
   "theorems": [
    "SAD.C105_spin_up",
    "SAD.C105_steady"
   ],
   "note": ""
  },
  {
   "property": "C106",
   "status": "proved",
   "theorems": [
    "SAD.C106_flight",
    "SAD.C106_exact"
   ],
   "note": "Exact arithmetic is assumed in C106_exact; the other theorems do not assume it."
  },
  {
   "property": "C107",
   "status": "proved",
   "theorems": [
    "SAD.C107_protocol",
    "SAD.C107_exact",
    "SAD.C107_flight",
    "SAD.C107_single"
   ],
   "note": "Exact arithmetic is assumed in C107_exact; the other theorems do not assume it."
  },
  {
   "property": "C108",
   "status": "proved",
   "theorems": [
    "SAD.C108_reads",
    "SAD.C108_read_only",
    "SAD.C108_assigns",
    "SAD.C108_state",
    "SAD.C108_unhashable",
    "SAD.C108_exact_after_step",
    "SAD.C108_single_before_step",
    "SAD.C108_overspeed"
   ],
   "note": "Exact arithmetic is assumed in C108_overspeed; the other theorems do not assume it."
  },
  {
   "property": "C109",
   "status": "proved",
   "theorems": [
    "SAD.C109_linear",
    "SAD.C109_point_mass",
    "SAD.C109_damped"
   ],
   "note": ""
  },
  {
   "property": "C110",
   "status": "proved",
   "theorems": [
    "SAD.C110_shown",
    "SAD.C110_default",
    "SAD.C110_error"
   ],
   "note": ""
  },
  {
   "property": "C111",
   "status": "proved",
   "theorems": [
    "SAD.C111_envelope_2d",
    "SAD.C111_envelope_3d",
    "SAD.C111_envelope_rot2d",
    "SAD.C111_envelope_sixdof",
    "SAD.C111_equations_cwh",
    "SAD.C111_equations_rot2d",
    "SAD.C111_equations_sixdof",
    "SAD.C111_alone_2d",
    "SAD.C111_alone_3d",
    "SAD.C111_alone_cwh",
    "SAD.C111_alone_rot2d",
    "SAD.C111_alone_sixdof",
    "SAD.C111_alone_sun",
    "SAD.C111_integrator"
   ],
   "note": "Exact arithmetic is assumed in C111_equations_cwh, C111_equations_rot2d, C111_equations_sixdof, C111_alone_2d, C111_alone_3d, C111_alone_cwh, C111_alone_rot2d, C111_alone_sixdof, C111_alone_sun, C111_integrator; the other theorems do not assume it."
  },
  {
   "property": "C112",
   "status": "proved",
   "theorems": [
    "SAD.C112_action",
    "SAD.C112_step",
    "SAD.C112_truncates",
    "SAD.C112_rejects",
    "SAD.C112_until_step"
   ],
   "note": ""
  },
  {
   "property": "C113",
   "status": "proved",
   "theorems": [
    "SAD.C113_flight",
    "SAD.C113_exact"
   ],
   "note": "Exact arithmetic is assumed in C113_exact; the other theorems do not assume it."
  },
  {
   "property": "C114",
   "status": "proved",
   "theorems": [
    "SAD.C114_entities",
    "SAD.C114_dynamics",
    "SAD.C114_vehicles"
   ],
   "note": ""
  },
  {
   "property": "C115",
   "status": "proved",
   "theorems": [
    "SAD.Aero.C115_derivatives",
    "SAD.Aero.C115_integers",
    "SAD.Aero.C115_controlled",
    "SAD.Aero.C115_euler",
    "SAD.Aero.C115_single"
   ],
   "note": "Exact arithmetic is assumed in C115_single; the other theorems do not assume it."
  },
  {
   "property": "C116",
   "status": "proved",
   "theorems": [
    "SAD.C116_undone",
    "SAD.C116_euler",
    "SAD.C116_cwh",
    "SAD.C116_sun",
    "SAD.C116_limit"
   ],
   "note": ""
  },
  {
   "property": "C117",
   "status": "proved",
   "theorems": [
    "SAD.C117_orbits",
    "SAD.C117_closes",
    "SAD.C117_drifts",
    "SAD.C117_hold"
   ],
   "note": ""
  },
  {
   "property": "C118",
   "status": "proved",
   "theorems": [
    "SAD.C118_rk45",
    "SAD.C118_euler"
   ],
   "note": ""
  },
  {
   "property": "C119",
   "status": "proved",
   "theorems": [
    "SAD.C119_rk45",
    "SAD.C119_euler"
   ],
   "note": ""
  },
  {
   "property": "C120",
   "status": "proved",
   "theorems": [
    "SAD.C120_rk45",
    "SAD.C120_euler"
   ],
   "note": ""
  },
  {
   "property": "C121",
   "status": "proved",
   "theorems": [
    "SAD.C121_2d_rk45",
    "SAD.C121_2d_euler",
    "SAD.C121_3d_rk45",
    "SAD.C121_3d_euler"
   ],
   "note": ""
  },
  {
   "property": "C122",
   "status": "proved",
   "theorems": [
    "SAD.C122_user",
    "SAD.C122_dubins2d_speed",
    "SAD.C122_dubins3d",
    "SAD.C122_rot2d",
    "SAD.C122_short"
   ],
   "note": ""
  },
  {
   "property": "C123",
   "status": "proved",
   "theorems": [
    "SAD.C123_centre",
    "SAD.C123_centre_rot2d",
    "SAD.C123_centre_sixdof",
    "SAD.C123_euler_equal",
    "SAD.C123_euler_grows",
    "SAD.C123_euler_rot2d",
    "SAD.C123_euler_sixdof",
    "SAD.C123_rk45",
    "SAD.C123_rk45_rot2d",
    "SAD.C123_rk45_sixdof"
   ],
   "note": ""
  },
  {
   "property": "C124",
   "status": "proved",
   "theorems": [
    "SAD.C124_behind",
    "SAD.C124_spin",
    "SAD.C124_length"
   ],
   "note": ""
  },
  {
   "property": "C125",
   "status": "proved",
   "theorems": [
    "SAD.C125_centre",
    "SAD.C125_stops_drift"
   ],
   "note": ""
  },
  {
   "property": "C126",
   "status": "proved",
   "theorems": [
    "SAD.C126_reach",
    "SAD.C126_reach_euler"
   ],
   "note": ""
  },
  {
   "property": "C127",
   "status": "proved",
   "theorems": [
    "SAD.C127_restore",
    "SAD.C127_derivative_stays",
    "SAD.C127_constructors"
   ],
   "note": ""
  },
  {
   "property": "C128",
   "status": "proved",
   "theorems": [
    "SAD.C128_braking",
    "SAD.C128_attained",
    "SAD.C128_safe"
   ],
   "note": ""
  },
  {
   "property": "C129",
   "status": "proved",
   "theorems": [
    "SAD.C129_table",
    "SAD.C129_table_bare",
    "SAD.C129_title_lost",
    "SAD.C129_bad_labels",
    "SAD.C129_late",
    "SAD.C129_rounded",
    "SAD.C129_reads",
    "SAD.C129_numbers",
    "SAD.C129_reads_unique",
    "SAD.C129_alike",
    "SAD.C129_shifted"
   ],
   "note": ""
  },
  {
   "property": "C130",
   "status": "proved",
   "theorems": [
    "SAD.C130_integrator_one_call",
    "SAD.C130_spacecraft_one_call",
    "SAD.C130_divided",
    "SAD.C130_total_time",
    "SAD.C130_euler_lag"
   ],
   "note": ""
  },
  {
   "property": "C131",
   "status": "proved",
   "theorems": [
    "SAD.C131_within",
    "SAD.C131_reached",
    "SAD.C131_rest_to_rest"
   ],
   "note": ""
  },
  {
   "property": "C132",
   "status": "proved",
   "theorems": [
    "SAD.C132_turn",
    "SAD.C132_rest_to_rest"
   ],
   "note": ""
  },
  {
   "property": "C133",
   "status": "proved",
   "theorems": [
    "SAD.C133_heading_2d",
    "SAD.C133_same_heading",
    "SAD.C133_heading_3d"
   ],
   "note": ""
  },
  {
   "property": "C134",
   "status": "proved",
   "theorems": [
    "SAD.C134_climb",
    "SAD.C134_no_hovering",
    "SAD.C134_underspeed"
   ],
   "note": ""
  },
  {
   "property": "C135",
   "status": "proved",
   "theorems": [
    "SAD.C135_speed",
    "SAD.C135_attitude"
   ],
   "note": ""
  },
  {
   "property": "C136",
   "status": "proved",
   "theorems": [
    "SAD.C136_separation_rk45",
    "SAD.C136_separation_3d",
    "SAD.C136_separation_2d"
   ],
   "note": ""
  }
 ]
}