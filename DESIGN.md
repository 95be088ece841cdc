# Formal model of safe-autonomy-dynamics in Lean 4

Everything is under `lean/Verif/`. `properties.jsonl` lists the properties, `MANIFEST.json` maps each one to the
theorems that establish it, `seeded/LOG.jsonl` records the mutation experiments.

## 1. Layout

| directory | contents |
|---|---|
| `Verif/Model/*` | the model: definitions only, each citing file and lines of `/repo` |
| `Verif/Spec/*` | small independent specifications (what "inside limits", "same angle", "bilinear interpolation" ... mean) |
| `Verif/Lemmas/*` | helper lemmas |
| `Verif/Props/*` | the property theorems, named `Cxx_...`, with `example`s showing that the hypotheses are met |

## 2. How the code is modelled

* **Numbers.** `Fl R` is a floating point datum (NaN, -inf, +inf or a finite value in an ordered field `K`) of a *format*
  `R : Fmt K`. A format gives the rounding function of binary64 and of binary32, the machine constant `pi` and the libm
  functions. Every Python `+ - * /` becomes the operation on `Fl R` that computes exactly and rounds through `R`;
  NaN/inf follow IEEE-754 (NaN compares false with everything). There is no signed zero. Framework properties are
  proved for *every* format (any rounding, or any monotone rounding where said so); physics properties are proved for
  *exact* formats (rounding = identity), in most cases over an arbitrary ordered field, in some over the reals.
* **Arrays.** 1-d arrays are lists, limits are a Python scalar or an array, with NumPy broadcasting (length-1 arrays
  stretch, other mismatches raise `ValueError`). `np.clip`, `np.where`, `%`, `@`, `np.linspace` follow NumPy 1.26.
* **Exceptions** are values (`Except PyErr`). `Entity.step` returns the entity after the call together with the outcome
  and a flag telling whether the limit warning was emitted, so effects of failing calls are visible.
* **External code** is a parameter (`Env`): `scipy.integrate.solve_ivp`, `jax...odeint`, whether jax is importable.
  Framework theorems hold for all of them. For physics the solver is SciPy's Dormand-Prince `RK45` formula with an arbitrary
  policy for choosing accepted steps (so every adaptive schedule is covered). SciPy's own policy, its error control, is modelled in
  `Model/SciPy` and used in C89 - C92; JAX's `odeint` is modelled in `Model/Jax` and used in C95, C96.
* **Aliasing** is modelled separately by a small heap of arrays (`Model/Heap.lean`).

## 3. Trusted base

* Lean 4.33's kernel. Axioms: only `propext`, `Classical.choice`, `Quot.sound` (section 6).
* The statements of the theorems, the definitions of `Verif/Spec` and `Verif/Model` they use, and Mathlib's definitions (ordered
  fields, the reals, trigonometric functions, `Real.sqrt`, `Real.rpow`, derivatives). The proofs and `Verif/Lemmas` need no trust.
* The correspondence between `/repo` and `Verif/Model`, checked by reading only: the code could not be run here. Every definition
  cites the lines it models.
* The reading of Python, NumPy 1.26, SciPy 1.13, pint 0.22 and pydantic 2.6 semantics (the versions of `poetry.lock`) given in section 2 and in the model's comments.

### Agreement with the project's test data

The model was executed on 198 of the 204 cases in `/repo/test/test_cases`, and all 198 agree. This is a test of the model, not a
proof; the runner and the details are in `conformance/`.

### What is modelled

| source file | model |
|---|---|
| `base_models.py` | `Model/Base` (entities, dynamics, steps, constructors of dynamics), `Model/Config` (validators, constructors), `Model/Units` (pint quantities), `Model/Heap` (array aliasing) |
| `integrators.py` | `Model/Integrators` |
| `cwh/point_model.py`, `cwh/sun_model.py` | `Model/Cwh` |
| `cwh/rotational_model.py` | `Model/Rotational` |
| `cwh/sixdof_model.py` | `Model/SixDof` |
| `dubins.py` | `Model/Dubins` |
| `utils.py` | `Model/Utils` |
| `external/aerobench/lowlevel/*` (tables, engine, `adc`) | `Model/Aero` |
| `.../morellif16.py`, `subf16_model.py`, `low_level_controller.py`, `clf16.py`, `conf16.py`, `controlled_f16.py` | `Model/F16` |
| `external/aerobench/util.py` | `Model/AeroUtil`, `Model/Print` |
| the `orientation` properties, with SciPy's `Rotation.from_euler`, product and `apply` | `Model/Orientation` |

`Model/Flt`, `Model/Formats`, `Model/Binary` are the number formats, `Model/First` the first step in single precision, `Model/Attr` attribute access, `Model/Np` the NumPy operations, `Model/Rk` SciPy's Runge-Kutta
formula, `Model/SciPy` its `solve_ivp` with the error control, the choice of the first step and the dense output, `Model/Jax` JAX's
`odeint` likewise.

### What is not modelled

* JAX's tracing and compilation. Its `odeint` is modelled (`Model/Jax`), in one format for all operations; JAX computes in float32 unless
  configured otherwise. Neither JAX nor SciPy is part of `/repo` or installed here: both models are readings of the locked versions.
* Which strings pydantic reads as numbers (a string value of the model carries the number it spells, if any);
  RuntimeWarnings of NumPy turned into exceptions by filters (for the limit warning see C110); arrays of dimension above 2 and dtypes other than float64, float32 and int64 (C112); threads; performance;
  the test suite.
* Signed zeros. Expressions whose operands are all float32, outside the first Euler step: the casts written in the code (`dtype=np.float32`:
  initial states, list actions, limits, the derivatives of the rotating spacecraft, C93) and the clipping of a float32 action (C01, C03) are
  modelled, and every arithmetic operation is one of the float64 format. In the first Euler step after construction (or after the assignment of a
  float32 array to `state`), where the state is a float32 array, NumPy evaluates functions and products of state elements in float32: this is
  `Model/First`, treated in C107 (and assignments to its elements are rounded to float32: `Model/Attr`, C108); `Entity.step` and `Entity.op` describe the steps from float64 states. Later states, and every state SciPy passes
  to the derivative, are float64.
* The effect of rounding inside SciPy's error control: theorems about RK45 hold for every choice of accepted steps, and that SciPy's
  choice is one of them is proved in exact arithmetic (C89). Where two runs are compared (C23, C26, C30, C33, C42, C51, C94) they are given
  the same choice; SciPy may choose differently for two different states.

### Assumptions that statements make explicit

* `IsRk dopri env`: what `solve_ivp(method="RK45")` returns ends in the result of a chain of Dormand-Prince steps, in exact
  arithmetic, whose sizes add up to the duration. `rkEnv` is a concrete solver with this property, and SciPy's solver as modelled has it (C89).
* `Model/SciPy` (C89 - C92) is a reading of SciPy 1.13's `scipy/integrate/_ivp`, which is not part of `/repo` and not installed here. As a
  check the model was evaluated in floating point on the first example of SciPy's documentation of `solve_ivp` (exponential decay, with
  and without `t_eval`): all printed digits agree. Its loops have fuel; `diverges` as an outcome says that a call has not returned within
  that many turns. `gap` is the distance to the next floating-point number, which bounds the step size from below; in exact arithmetic it
  is 0.
* `Integrates` (C86): the same for floating-point arithmetic: from every state within a bound the solver reaches the end in at most `nu`
  Dormand-Prince steps of at most `eta`, each of the computed size `t_new - t`, and reports the result of the last. The stages are
  evaluated as SciPy writes them (`y + np.dot(K.T, a) * h`), dot products from left to right; the derivative at the start of a step
  is computed afresh, whereas SciPy reuses the one computed at the end of the previous step, which is the same for the
  time-independent right-hand sides of the library. `oneStepEnv` is a concrete solver with this property.
* Physics is proved for formats in which rounding is the identity (`Exact R`), over any ordered field or over the reals. The effect of
  rounding on the physics is bounded for linear models (C84, C85, C86, C109), the sun (C103), the aircraft (C106, C107, C113, C121), the rotating
  spacecraft (C119, C120) and models of users (C118), and is not claimed anywhere else. There matrix-vector
  products are summed from left to right with every operation rounded; a BLAS may sum in another order or fuse operations, which
  changes the computed bits but not this kind of bound. Limits, saturation, warnings, dispatch, atomicity, NaN behaviour
  and aliasing are proved for every format, rounded ones included. `Model/Binary` is IEEE binary64 with round-to-nearest-even and is
  used for concrete counterexamples and for the properties just listed.
* `EulerRoundTrip` (C53) stands for `scipy.spatial.transform.Rotation.as_euler` of a quaternion; it is an arbitrary function returning
  three numbers.
* The aerobench functions are modelled on float scalars: products and sums in the order in which they are written, `**` with an
  integer exponent as one correctly rounded power, `**` with a real exponent through the format's `pow`, matrix-vector products
  row by row.
* Heap (C24): arrays are shared or copied as NumPy does for `np.array`, `np.copy`, assignment and slicing of 1-d arrays.
* `Freezable` (C68) objects have plain attributes; the right-hand side given to the Euler integrator (C69) does not modify its arguments.

## 4. Property by property

* **C01 Control saturation.** Model/Base: resolve action -> warn -> clip -> dynamics. Prove from the clip element lemma, for every format. Theorems in `Props/Control`: `C01_applied_control_saturated`, `C01_step_decided_by_applied_control`, `C01_saturated_action_equivalent`, `C01_in_range_unchanged`, `C01_float32_scalar_limit_violated`.
* **C02 Limit warning is exact.** Same model; the warning flag is compared to an element-wise spec. Theorems in `Props/Control`: `C02_warning_iff`, `C02_warning_iff_broadcast`, `C02_warning_iff_changed`.
* **C03 NaN controls bypass saturation.** Element lemma for clip at NaN. Theorems in `Props/Control`: `C03_nan_not_clipped`, `C03_nan_not_warned`.
* **C04 Dict actions.** Fold over the dict; induction on the entries with injectivity; permutation invariance. Theorems in `Props/Control`: `C04_dict_action`, `C04_dict_order_irrelevant`.
* **C05 Unknown actuator is rejected without effect.** Case analysis of the resolve stage, induction on entries; effect frame of the step record. Theorems in `Props/Control`: `C05_unknown_actuator`, `C05_dict_without_map`, `C05_unsupported_action`.
* **C06 Default action.** Unfolding plus induction over operation histories. Theorems in `Props/Control`: `C06_default_action`, `C06_config_immutable`.
* **C07 Failed steps are atomic.** Every error path of the Except monad returns the old record. Theorems in `Props/Control`: `C07_failed_step_atomic`, `C07_failing_history`.
* **C08 State limits hold after every step.** Clip lemma; induction over histories. Theorems in `Props/State`: `C08_state_limits`, `C08_nan_not_caught`.
* **C09 Wrapped angles stay in range.** pyMod lemma in exact arithmetic; monotone rounding argument for formats. Theorems in `Props/State`: `C09_wrapped_range`, `C09_wrapped_range_rounded`, `C09_wrapped_range_rounded_centre`, `C09_both_ends_attained`.
* **C10 Wrapping preserves the angle when the centre is 0.** Int.floor arithmetic. Theorems in `Props/State`, `Props/Wrapping`: `C10_wrap_same_angle`, `C10_wrap_identity_in_range`, `C10_wrap_complete`, `C10_unwrapped_untouched`, `C10_step`.
* **C11 Wrapping with a non-zero centre shifts the angle.** Same; induction on the number of steps for the drift. Theorems in `Props/State`, `Props/Wrapping`: `C11_wrap_angle_shifted`, `C11_wrap_preserves_iff`, `C11_drift`, `C11_step`.
* **C12 Limits and wrapping compose only inside one turn.** Combination of 8-10 with a witness for the failure. Theorems in `Props/State`: `C12_wrapped_within_limits`, `C12_wrapped_within_limits_rounded`, `C12_limit_violated_by_wrap`.
* **C13 State-derivative limits.** Element lemma for the two clips. Theorems in `Props/State`: `C13_state_dot_limits`, `C13_violated_when_zero_excluded`.
* **C14 No outward derivative at a state limit.** Element lemma. Theorems in `Props/State`: `C14_no_outward_derivative`, `C14_limited_derivative`, `C14_pinned_element_outward`.
* **C15 Euler step.** Unfold Euler branch; witness for the difference. Theorems in `Props/Solver`: `C15_euler_step`, `C15_not_end_derivative`.
* **C16 RK45 end-of-step derivative.** Unfold RK45 branch for an arbitrary solver. Theorems in `Props/Solver`: `C16_rk45_step`, `C16_not_derivative_of_reported_state`.
* **C17 Integration method dispatch.** Case analysis over method strings. Theorems in `Props/Solver`: `C17_supported_methods`, `C17_unsupported_method`, `C17_construction`.
* **C18 Trajectory sampling.** List lemmas on linspace. Theorems in `Props/Solver`: `C18_trajectory_stored`, `C18_stale_trajectory`, `C18_sample_times`, `C18_sample_times_increasing`, `C18_sampled_step`.
* **C19 Zero-duration step.** Euler by algebra, Runge-Kutta by induction on the schedule. Theorems in `Props/Solver`: `C19_zero_step`.
* **C20 JAX integration ignores derivative limits.** Witness system. Theorems in `Props/Solver`: `C20_jax_step`, `C20_jax_differs`.
* **C21 Control-affine form.** Algebra on matrix-vector product. Theorems in `Props/Linear`: `C21_affine`, `C21_superposition`, `C21_wrong_length`.
* **C22 Linear model validation.** Decision logic. Theorems in `Props/Linear`: `C22_shape_check`, `C22_construction`.
* **C23 Linear superposition.** Unary invariant on the product of three systems, closed under any Runge-Kutta step. Theorems in `Props/Linear`: `C23_superposition`.
* **C24 No aliasing of the state.** Heap model, induction over user operations. Theorems in `Props/Heap`: `C24_only_steps_and_assignments`, `C24_default_control`, `C24_step_writes_nothing`, `C24_assignment_copies`, `C24_read_is_new`, `C24_values_suffice`, `C24_default_handle_leaks`, `C24_state_dot_leaks`.
* **C25 Integrator kinematics.** Stage-by-stage algebra for the Dormand-Prince tableau, induction on schedule. Theorems in `Props/Integrators`: `C25_dynamics`, `C25_entity`.
* **C26 Integrator axes are independent.** Product-system invariant. Theorems in `Props/Integrators`: `C26_axes_independent`.
* **C27 Integrator dict actions drive only x.** Fold lemma with the coded control_map. Theorems in `Props/Integrators`: `C27_dict_only_x`.
* **C28 Integrator equality and construction.** Abstract-method table; broadcast equality. Theorems in `Props/Integrators`: `C28_not_constructible`, `C28_subclass_constructible`, `C28_others_constructible`, `C28_never_equal`, `C28_equality_not_symmetric`.
* **C29 Clohessy-Wiltshire equations.** Matrix product; HasDerivAt of the closed form. Theorems in `Props/Cwh`: `C29_equations`, `C29_zero_mass`, `C29_closed_form`.
* **C30 Cross-track decoupling.** Product-system invariant. Theorems in `Props/Cwh`: `C30_decoupled`.
* **C31 Along-track first integral.** Linear functional with constant rate. Theorems in `Props/Cwh`: `C31_step`, `C31_conserved`.
* **C32 Relative orbital energy.** Algebra (gradient dot derivative). Theorems in `Props/Cwh`: `C32_energy_rate`, `C32_energy_along_solutions`.
* **C33 Along-track translation invariance and equilibria.** Product-system invariant. Theorems in `Props/Cwh`: `C33_translation`, `C33_equilibrium`.
* **C34 Relative metrics.** Algebra on lists. Theorems in `Props/Cwh`: `C34_relative`, `C34_errors`.
* **C35 2d body-frame thrust.** Algebra with sin^2+cos^2=1. Theorems in `Props/Rotational`: `C35_body_frame_thrust`, `C35_magnitude`, `C35_aligned`.
* **C36 Effective rotational limits.** min lemmas + 8/9. Theorems in `Props/Rotational`: `C36_angular_acceleration`, `C36_angular_velocity`, `C36_theta_range`, `C36_theta_range_rounded`, `C36_effective_limits`.
* **C37 2d orientation.** Trigonometric identities. Theorems in `Props/Rotational`: `C37_quaternion`, `C37_double_cover`.
* **C38 Quaternion norm.** Algebra. Theorems in `Props/SixDof`: `C38_stationary`, `C38_euler_growth`, `C38_solutions`.
* **C39 apply_quat is a rotation.** Algebra (ring). Theorems in `Props/SixDof`: `C39_hamilton`, `C39_hamilton_laws`, `C39_apply`, `C39_inner`, `C39_matrix`, `C39_compose`.
* **C40 Quaternion kinematics are body-frame.** Algebra. Theorems in `Props/SixDof`: `C40_kinematics`.
* **C41 Rigid-body invariants.** Algebra. Theorems in `Props/SixDof`: `C41_rates`, `C41_off_diagonal`, `C41_solutions`.
* **C42 Default attitude is the zero quaternion and is inert.** Invariant over any schedule. Theorems in `Props/SixDof`: `C42_default_zero`, `C42_orientation_raises`, `C42_stays_zero`, `C42_thrust_inert`.
* **C43 Six-DOF limits.** min lemmas + 8. Theorems in `Props/SixDof`: `C43_angular_velocity`, `C43_effective_limits`.
* **C44 Consistency between spacecraft models.** Algebra. Theorems in `Props/SixDof`: `C44_point_mass`, `C44_planar`.
* **C45 Sun motion.** Linear functional; induction on schedule and history. Theorems in `Props/Sun`: `C45_actions_ignored`, `C45_motion`, `C45_always_steps`.
* **C46 Sun equality.** Decision logic. Theorems in `Props/Sun`: `C46_equality`.
* **C47 Dubins velocity.** Algebra. Theorems in `Props/Acceleration`, `Props/Dubins`: `C47_single_2d`, `C47_single_3d`, `C47_velocity_2d`, `C47_velocity_3d`.
* **C48 Dubins limits.** Instance of 8/9/12. Theorems in `Props/Dubins`: `C48_speed_2d`, `C48_speed_3d`, `C48_heading`, `C48_heading_rounded`, `C48_gamma_roll`, `C48_gamma_roll_rounded`.
* **C49 Straight flight.** Invariant along schedules. Theorems in `Props/Dubins`: `C49_straight_2d`, `C49_straight_3d`.
* **C50 Coordinated turn.** Sign of tan. Theorems in `Props/Dubins`: `C50_turn_rate`.
* **C51 Translation invariance of Dubins flight.** Product-system invariant. Theorems in `Props/Dubins`: `C51_translation_2d`, `C51_translation_3d`.
* **C52 Acceleration property.** Algebra with sqrt. Theorems in `Props/Acceleration`, `Props/Dubins`: `C52_single_2d`, `C52_single_3d`, `C52_along_2d`, `C52_along_3d`, `C52_acceleration_2d`, `C52_acceleration_3d`, `C52_acceleration_standstill`, `C52_normal_part_missing`.
* **C53 Entity equality.** Decision logic on element equality. Theorems in `Props/Equality`: `C53_symmetric`, `C53_other_class`, `C53_implies_position_velocity`, `C53_transitive`, `C53_ignores_everything_else`, `C53_reflexive_cwh`, `C53_reflexive_rot2d`, `C53_reflexive_sixDof`, `C53_reflexive_dubins2d`, `C53_reflexive_dubins3d`.
* **C54 Unit conversion.** Units as dimension vector and scale factor. Theorems in `Props/Units`: `C54_wrong_dimension`, `C54_same_magnitude`, `C54_export_import`, `C54_integrator_rejects_export`.
* **C55 Config validation.** Record of accepted keyword sets. Theorems in `Props/Units`: `C55_accepted_keywords`, `C55_initial_state`.
* **C56 number_list_to_np.** Decision logic. Theorems in `Props/Utils`: `C56_number`, `C56_array`, `C56_list`, `C56_list_never_values`, `C56_other`, `C56_spacecraft_float_lists`.
* **C57 fix truncates.** Floor/ceil. Theorems in `Props/Aero`: `Aero.C57_truncates`, `Aero.C57_rejects`.
* **C58 Aerodynamic tables are never read out of range.** Bounds on the computed indices for every real. Theorems in `Props/Aero`: `Aero.C58_indices`, `Aero.C58_no_index_error`, `Aero.C58_defined`, `Aero.C58_formats`.
* **C59 Aerodynamic tables are bilinear interpolants.** Refinement to a textbook bilinear interpolant. Theorems in `Props/Aero`, `Props/Tables`: `Aero.C59_two_way`, `Aero.C59_one_way`, `Aero.C59_grid_points`, `Aero.C59_between`, `Aero.C59_extrapolates`, `Aero.C59_data`.
* **C60 Rolling and yawing moments are odd in sideslip.** Algebra on absolute value and sign. Theorems in `Props/Aero`: `Aero.C60_odd`, `Aero.C60_odd_rounded`.
* **C61 Throttle gearing.** Linear arithmetic. Theorems in `Props/Engine`: `Aero.C61_range`, `Aero.C61_increasing`, `Aero.C61_jump`.
* **C62 Engine lag.** Linear arithmetic + induction. Theorems in `Props/Engine`: `Aero.C62_rtau`, `Aero.C62_towards`, `Aero.C62_invariant`.
* **C63 Air data computer.** Real powers. Theorems in `Props/Engine`: `Aero.C63_air_data`, `Aero.C63_ceiling`.
* **C64 Thrust table.** Interpolation lemmas. Theorems in `Props/Engine`, `Props/Tables`: `Aero.C64_value`, `Aero.C64_corners`, `Aero.C64_continuous`, `Aero.C64_negative_altitude`, `Aero.C64_data`.
* **C65 Low-level controller saturation.** Saturation lemma. Theorems in `Props/Controller`: `Aero.C65_within`, `Aero.C65_law`, `Aero.C65_trim`, `Aero.C65_integrators`, `Aero.C65_gains`, `Aero.C65_lengths`, `Aero.C65_double`, `Aero.C65_overflow`.
* **C66 F-16 wind-axis kinematics.** Algebra with trig identities. Theorems in `Props/Flight`: `Aero.C66_defined`, `Aero.C66_body_acceleration`, `Aero.C66_newton`, `Aero.C66_outputs`.
* **C67 F-16 navigation.** Algebra. Theorems in `Props/Flight`: `Aero.C67_body_rates`, `Aero.C67_attitude`, `Aero.C67_position`, `Aero.C67_speed`, `Aero.C67_vertical`.
* **C68 Freezable.** Invariant over assignment histories. Theorems in `Props/Freezable`: `Aero.Obj.C68_freeze`, `Aero.Obj.C68_rejected`, `Aero.Obj.C68_assign`, `Aero.Obj.C68_no_new_attributes`, `Aero.Obj.C68_same_attributes`, `Aero.Obj.C68_thaw`.
* **C69 Fixed-step Euler integrator.** Invariant over calls. Theorems in `Props/Euler`: `Aero.C69_finished_idle`, `Aero.C69_raises`, `Aero.C69_finished_iff`, `Aero.C69_asserts`, `Aero.C69_default`, `Aero.C69_run`, `Aero.C69_time`, `Aero.C69_calls`, `Aero.C69_constant`, `Aero.C69_dense`, `Aero.C69_stuck`, `Aero.C69_dense_stale`.
* **C70 Safety verification.** List.all characterisation. Theorems in `Props/Results`: `Aero.C70_verify`, `Aero.C70_speed_ignored`, `Aero.C70_one_sided`, `Aero.C70_no_controller`, `Aero.C70_empty`.
* **C71 Multi-aircraft extraction.** List slicing. Theorems in `Props/Results`: `Aero.C71_columns`, `Aero.C71_defined`, `Aero.C71_reassemble`, `Aero.C71_single`, `Aero.C71_out_of_range`, `Aero.C71_minus_one`.
* **C72 controlled_f16 layout.** Unfolding. Theorems in `Props/Controlled`: `Aero.C72_asserts`, `Aero.C72_lengths`, `Aero.C72_default`, `Aero.C72_controlled`.
* **C73 Trim cost and constraints.** Algebra and trig. Theorems in `Props/Trim`: `Aero.C73_only`, `Aero.C73_idempotent`, `Aero.C73_orient`, `Aero.C73_default`, `Aero.C73_candidate`, `Aero.C73_cost`, `Aero.C73_turn`, `Aero.C73_level`, `Aero.C73_climb`, `Aero.C73_pull_up`.
* **C74 Actuators by name.** Instances of C04-C06 with the documented actuator tables, which Spec/Classes lists independently. Theorems in `Props/Actuators`: `C74_named_actuators`, `C74_unknown_actuator`, `C74_no_action`, `C74_sun`.
* **C75 F-16 energy balance.** Chain rule on kinetic plus potential energy, from the wind-axis rates of C66. Theorems in `Props/Moments`: `Aero.C75_energy_rate`, `Aero.C75_loses_energy`.
* **C76 F-16 rotational dynamics.** Solve the 3x3 Euler equation of Props/Moments (textbook inertia matrix) and compare coefficient by coefficient. Theorems in `Props/Moments`: `Aero.C76_solvable`, `Aero.C76_rotation`, `Aero.C76_no_moment`.
* **C77 F-16 invariances.** Symbolic comparison of two runs of the model, any arithmetic; addition theorems for the turned heading. Theorems in `Props/Invariance`: `Aero.C77_position`, `Aero.C77_throttle`, `Aero.C77_heading`, `Aero.C77_engine`, `Aero.C77_turned`.
* **C78 F-16 symmetric flight.** All odd coefficients vanish; what remains of the equations is the engine's gyroscopic term. Theorems in `Props/Invariance`: `Aero.C78_symmetric`, `Aero.C78_gyroscopic`.
* **C79 F-16 out-of-range and NaN inputs.** NaN propagation through every stage of the model, any arithmetic; comparisons with NaN are false. Theorems in `Props/NaNs`: `Aero.C79_nan_surfaces`, `Aero.C79_nan_state`, `Aero.C79_nan_stevens`, `Aero.C79_nan_feedback`, `Aero.C79_hard_over`, `Aero.C79_limits`, `Aero.C79_silent`.
* **C80 Array actions of the wrong length.** Broadcasting as modelled in Np: a one-element operand is repeated, other mismatches raise; the limits of the classes are arrays of the right length after every history (C07). Theorems in `Props/Lengths`: `C80_one_element`, `C80_wrong_length`, `C80_point_mass`.
* **C81 Order of accuracy on linear models.** Taylor form of the Dormand-Prince and Euler step on a linear system, mean value inequality for the exact solution, Gronwall bound, induction over the accepted steps and over the history. Theorems in `Props/Accuracy`: `C81_linear`, `C81_cwh`, `C81_coasting`, `C81_converges`.
* **C82 Orientation agrees with the motion.** Model/Orientation: SciPy's quaternion product, from_euler and apply; trigonometric identities and the derivative theorems C35, C44, C47, C50. Theorems in `Props/Orientation`: `C82_nose_3d`, `C82_nose_2d`, `C82_bank`, `C82_thrust_planar`, `C82_thrust_sixdof`, `C82_others`.
* **C83 A failed integration is accepted silently.** Relational induction over histories on entities that agree up to the stored times; a concrete solver that gives up half way. Theorems in `Props/Failure`: `C83_failure_ignored`, `C83_short_step`.
* **C84 Rounding error of a step.** Spec/Rounding: relative rounding error, proved for binary64; a calculus of approximations (k roundings relative to a magnitude) for sums, products, scalar products; applied to matVec, the Euler update and the CWH matrices. Theorems in `Props/Rounding`: `C84_linear`, `C84_cwh`.
* **C85 A whole simulation in double precision.** C84 for one step, mean value inequality for the local error of Euler, discrete Gronwall induction over the history in a norm that weighs velocities by a free scale. Theorems in `Props/Precision`: `C85_thrust`, `C85_coasting`.
* **C86 A whole RK45 simulation in double precision.** Rounding calculus of C84 lifted to the stages of a Runge-Kutta step with weights for positions and velocities (126 roundings per step); Taylor expansion of Dormand-Prince (C81) in the weighted norm; discrete Gronwall induction over the solver's steps and the history. Theorems in `Props/PrecisionRk`: `C86_thrust`, `C86_coasting`.
* **C87 Where thrust can take a point mass.** Invariant relating elapsed time and state kept by every call (Lemmas/Timed); Runge-Kutta chains of the double integrator are exact up to the method's quadrature; solve for the two thrusts in closed form. Theorems in `Props/Reach`: `C87_reach`, `C87_sharp`, `C87_controllable`, `C87_along_track`.
* **C88 Turns of the aircraft follow circles and helices.** In the complex plane the velocity is a rotating exponential; the Dormand-Prince step is then a quadrature of the exponential whose error is bounded by the Taylor tail; induction over the solver's steps and the history. Theorems in `Props/Turn`: `C88_turn_2d`, `C88_full_circle`, `C88_turn_3d`.
* **C89 RK45 steps keep the estimated error within the tolerances.** Model/SciPy: initial step selection, the loop of trial steps with its step factors, dense output. Induction over trial steps and accepted steps (Lemmas/SciPy); over the reals the computed error norm is the root mean square of Spec/ErrorControl (Lemmas/SciPyReal). Theorems in `Props/SciPy`: `C89_dormand_prince`, `C89_error_controlled`.
* **C90 Sampled trajectories of point masses are exact.** The dense output of one accepted step reproduces quadratic motion (the columns of P satisfy the order conditions of degree 2); induction over the accepted steps with the sample times split between them. Theorems in `Props/SciPy`: `C90_sampled_motion`.
* **C91 RK45 steps return.** Bound the stages and the error estimate linearly in the step size: small steps are accepted, rejected steps shrink by a factor, accepted ones are bounded below while the state stays within an exponential bound; so both loops end. Levels: by induction over the levels, the points at which a step evaluates the derivative stay bounded, so the next level grows linearly there; the rate about the axis of symmetry comes first, then the other rates, the quaternion, the translation. Answers are monotone in the fuel. Theorems in `Props/SciPy`, `Props/SciPyLayers`: `C91_returns`, `C91_point_mass`, `C91_spacecraft`, `C91_dubins2d`, `C91_rotational`, `C91_returns_layers`, `C91_sixdof`.
* **C92 RK45 steps that raise or never return.** Props/Stalls over Model/SciPy: a NaN derivative makes select_initial_step answer NaN, and with a NaN step size the loop of _step_impl neither accepts nor gives up (induction on the fuel, any arithmetic); at rest the first size is finite and is divided by 5 until it is below ten gaps. Theorems in `Props/Stalls`: `C92_spacecraft_nan`, `C92_point_mass_nan`, `C92_spacecraft_nan_at_rest`, `C92_nonfinite_state`, `C92_zero_duration_samples`.
* **C93 Single precision inside the rotating spacecraft.** Props/Single over Model/Binary (IEEE binary32 and binary64 with an arbitrary libm): a binary32 number is a fixed point of both roundings, so the rows of A that pass the velocity on are exact; the other rows by the error propagation of C84 with the cast as one more rounding. The disagreement of the models by evaluation of one step of each. Theorems in `Props/Single`: `C93_rotational_derivative`, `C93_rotational_step`, `C93_rotational_resolution`, `C93_sixdof_derivative`, `C93_models_disagree`.
* **C94 Symmetries of Dubins flight.** Props/Symmetry, Lemmas/Symmetry, over the reals: an affine map that carries the limited vector field to itself carries every Runge-Kutta chain to a chain; clipping and wrapping respect the relation up to whole turns; induction over the pair of runs. Theorems in `Props/Symmetry`: `C94_rotation_2d`, `C94_mirror_2d`, `C94_rotation_3d`, `C94_mirror_3d`.
* **C95 Steps with JAX.** Model/Jax: `odeint` of jax 0.4.26 with fuel for its loop. Invariant of the loop: accepted steps are tolerated, the polynomial belongs to the last of them. Spec/Jax states this with vectors of reals; exactness by the order conditions of the tableau and of the midpoint formula. Theorems in `Props/Jax`, `Props/JaxEnds`: `C95_no_time`, `C95_nan`, `C95_error_controlled`, `C95_rotation`, `C95_limits`, `C95_sun`.
* **C96 Steps with JAX return.** Lemmas/JaxEnds: on a bounded set the error of a step is at most quadratic in its size, so small steps are accepted and step sizes are bounded below; each loop turn either advances by at least that or divides the size by at least 10/9. Theorems in `Props/JaxEnds`: `C96_returns`, `C96_rotation`, `C96_sun`.
* **C97 A spinning 3d spacecraft under RK45.** Lemmas/Spin: with constant rates the quaternion equation is linear and commutes with right multiplication, so a Dormand-Prince step multiplies by a polynomial in the imaginary unit of the axis; its modulus and distance to the exponential are bounded, then induction over the history. Theorems in `Props/Spin`: `C97_spin`.
* **C98 Simulations converge to the solution of the differential equation.** Lemmas/Converge: the Dormand-Prince step differs from the Euler step by 17 h^2 L |f| (Lipschitz bounds stage by stage), the exact solution by L B h^2 (mean value inequality); discrete Gronwall induction over solver steps and then over the history. Existence by Picard-Lindeloef, uniqueness by Gronwall, call by call. Theorems in `Props/Converge`: `C98_converges`, `C98_exists`, `C98_unique`, `C98_limit`.
* **C99 Within their limits all the models converge to their equations of motion.** Lemmas/Inside: a compact tube around the motion on which the field is bounded and Lipschitz; the solver's stages stay in the tube for short calls, so each step differs from the exact motion by a multiple of h^2 and the error grows at most exponentially; no limit cuts inside the tube, wrapping moves the state by whole turns under which the field is periodic. The library's models meet the hypotheses (Realises.movesWith); induction over the stretches. Theorems in `Props/Inside`: `C99_tracks`, `C99_dubins2d`, `C99_dubins3d`, `C99_rot2d`, `C99_sixdof`, `C99_stretches`.
* **C100 Whole F-16 simulations.** Induction over ticks of the integrator. Power: the throttle command is limited to [0,1], tgear maps it to [0,100], the lag moves the power towards it (C61, C62, C77). Map motions: commands and tracking errors do not depend on heading and position, the ground velocity turns with the heading (kRates). Distance: the ground velocity has length |vt| (C67) and Cauchy-Schwarz. Theorems in `Props/Mission`: `Aero.C100_power`, `Aero.C100_moved`, `Aero.C100_distance`.
* **C101 Damped integrators.** Project the state to one velocity: a Runge-Kutta step multiplies its distance from the terminal velocity by a polynomial in c times the step, which lies in [0, 1/(1+x)] for x in [0,2]. Position plus velocity over damping has a constant rate, which every Runge-Kutta method integrates exactly. Induction over the calls. Theorems in `Props/Damped`: `C101_terminal`, `C101_bounded`, `C101_coast`, `C101_euler`, `C101_unstable`.
* **C102 Several entities in one program do not interfere.** Model/Sim: a program state with a list of entities that refer by index to a list of dynamics objects. A step of the dynamics never reads the stored trajectory, so two entities that differ only in it step alike; induction over the program. Theorems in `Props/Sim`: `C102_independent`, `C102_library`, `C102_shared_trajectory`, `C102_registered`.
* **C103 The Sun in double precision.** Induction over the history with the running error bound; each step by the rounding lemmas for Euler and Dormand-Prince steps with a constant rate. For the stall: monotonicity of rounding between 2^53 and 2^53 + 1. Theorems in `Props/SunPrecision`: `C103_euler`, `C103_rk45`, `C103_stall`.
* **C104 How far a Dubins aircraft flies.** Euler: induction over the history with the invariant that the speed is within its limits and the distance flown is at most the bound, by the triangle inequality (Realises.run_euler). Straight flight: the limited field agrees with the unlimited one at all the points where the stages of the steps evaluate it, because the stage speeds lie between the speeds at the ends (Lemmas/Agree), and Dormand-Prince is exact on double integrators. Overspeed: one step computed stage by stage. Theorems in `Props/DubinsReach`, `Props/DubinsSpan`: `C104_euler_2d`, `C104_euler_3d`, `C104_accelerated_2d`, `C104_overspeed`, `C104_full_speed_2d`, `C104_span_2d`.
* **C105 The attitude of the planar spacecraft.** Angle and angular velocity form an autonomous limited system, to which the projection maps every Runge-Kutta chain (rkChain_map). While the stage velocities stay between the limits it agrees with a double integrator (Lemmas/Agree), on which Dormand-Prince is exact; in the steady cases the field is constant along the line of the motion. Theorems in `Props/PlanarSpin`: `C105_spin_up`, `C105_steady`.
* **C106 Flights of the 2d aircraft in double precision.** One step in any arithmetic with bounded rounding errors (Lemmas/RoundDubins: rates, updates, speed limits, %, wrapping), compared over the reals with the exact step; then induction over the legs with the errors of coordinates, heading and speed as invariants. Spec/Legs is the reference flight. Theorems in `Props/DubinsPrecision`: `C106_flight`, `C106_exact`.
* **C107 The first step is computed in single precision.** Model/First: the derivatives with the operations on float32 operands in a second format. Protocol from C07, C08 and the structure of step, for every derivative. Flight: Lemmas/RoundDubins for any derivative with the given rates, then the induction of C106 from the second leg on. Observability: between 256 and 512 single precision numbers are multiples of 2^-15, and 400 cos(1/1024) is a quarter of that away from all of them. Theorems in `Props/FirstStep`: `C107_protocol`, `C107_exact`, `C107_flight`, `C107_single`.
* **C108 Which attributes can be assigned, and what an assignment does.** Model/Attr: the properties each class body defines, lookup along the method resolution order, assignment through setters, and an entity with the dtype of its state array. Spec/Attributes lists the documented names. Induction over histories for the dtype; the Euler step of Dubins aircraft over the reals for the speed. Theorems in `Props/Attributes`: `C108_reads`, `C108_read_only`, `C108_assigns`, `C108_state`, `C108_unhashable`, `C108_exact_after_step`, `C108_single_before_step`, `C108_overspeed`.
* **C109 Linear models under RK45 in double precision.** Spec/Linear states the derivative and the closed forms. The step of the Dormand-Prince pair as a polynomial in A gives growth and local error in a weighted maximum norm; each rounded stage is a relative perturbation of the exact one; induction over steps and histories (Lemmas/RoundLinRk, Lemmas/LinSim). Without damping the Dormand-Prince step is exact. Theorems in `Props/PrecisionLinear`: `C109_linear`, `C109_point_mass`, `C109_damped`.
* **C110 How the limit warning is seen.** Model/Warn: step with the call of warnings.warn in its place, and warn_explicit of CPython with its registries. Spec/Warnings says what is shown per stretch of the program. Invariant of the registries since the last change of the filters, induction over operations and stretches. Theorems in `Props/Warnings`: `C110_shown`, `C110_default`, `C110_error`.
* **C111 Vehicles built without parameters.** The general theorems on limits (C36, C43, C48) and equations (C29, C37, C49) at the default arguments of the constructors, with the limits computed in double precision as the constructors compute them. Theorems in `Props/Stock`: `C111_envelope_2d`, `C111_envelope_3d`, `C111_envelope_rot2d`, `C111_envelope_sixdof`, `C111_equations_cwh`, `C111_equations_rot2d`, `C111_equations_sixdof`, `C111_alone_2d`, `C111_alone_3d`, `C111_alone_cwh`, `C111_alone_rot2d`, `C111_alone_sixdof`, `C111_alone_sun`, `C111_integrator`.
* **C112 Arrays of integers as actions and states.** Model/Attr with int64 among the dtypes: storing a Python float takes its integer part. The invariant that the state consists of integers is kept by induction over the history of operations. Theorems in `Props/Integers`: `C112_action`, `C112_step`, `C112_truncates`, `C112_rejects`, `C112_until_step`.
* **C113 Flights of the 3d aircraft in double precision.** As C106 with seven components (Lemmas/RoundDubins3): the turn rate g / v * tan(roll) is Lipschitz in roll and speed between the limits, so the errors of roll and speed enter the heading, and those of heading, flight path angle and speed the position; induction over the legs. Spec/Legs3 is the reference flight. Theorems in `Props/DubinsPrecision3`: `C113_flight`, `C113_exact`.
* **C114 Deriving classes from the base classes.** Model/Config and Model/Classes list the members of the classes with their abstractness; an attribute is looked up along the method resolution order. Induction over the chain of derived classes. Theorems in `Props/Subclass`: `C114_entities`, `C114_dynamics`, `C114_vehicles`.
* **C115 F-16 states as arrays of integers or in single precision.** Model/F16Typed: the functions with the stores into copies of the state made explicit, by dtype, and operations in place. Unfolding both computations side by side; the integrator by induction over the calls. Theorems in `Props/F16Typed`: `Aero.C115_derivatives`, `Aero.C115_integers`, `Aero.C115_controlled`, `Aero.C115_euler`, `Aero.C115_single`.
* **C116 Steps of negative duration.** Steps of any sign are in the model of the solver. Uniform motion composed with itself for the opposite time; induction over the history; a set invariant under every Runge-Kutta step at the limit. Theorems in `Props/Backwards`: `C116_undone`, `C116_euler`, `C116_cwh`, `C116_sun`, `C116_limit`.
* **C117 Relative orbits and station keeping.** The closed-form solution at multiples of the period, and the error bound of C81; the held state is a fixed point of every Runge-Kutta step. Theorems in `Props/Orbit`: `C117_orbits`, `C117_closes`, `C117_drifts`, `C117_hold`.
* **C118 A user's own model in double precision.** Error of one rounded step against one exact step of the motion (local error of a convergent method plus rounding), Gronwall over the steps of a call and over the calls. The computed states stay within the distance ρ of the motion in which the hypotheses hold, as the bound is at most ρ. Theorems in `Props/PrecisionUser`: `C118_rk45`, `C118_euler`.
* **C119 The planar rotating spacecraft in double precision.** The derivative in mixed precision against the exact equations of motion, with sizes in units per element, then the error analysis of C118. The wrapped heading differs from that of the exact motion by whole turns and the rounding of the wrapping, and the equations of motion do not change under whole turns, so after each call the exact motion is continued from a heading shifted by whole turns. Theorems in `Props/PrecisionTurning`: `C119_rk45`, `C119_euler`.
* **C120 The spacecraft with six degrees of freedom in double precision.** Each intermediate result of the derivative is tracked with a bound of its size and its error in units of that size, through the quaternion products, the conversion to single precision and the matrix products; the sum is compared with the exact equations of motion. These are Lipschitz where states are bounded, so the error analysis of C118 applies, with a different unit for positions, attitude, velocities and body rates. Theorems in `Props/PrecisionTumbling`: `C120_rk45`, `C120_euler`.
* **C121 The aircraft in double precision with RK45 and Euler.** Spec/Aloft defines the exact flight over the reals, its units and the room it needs. Lemmas/AloftRun: wrapping in floating point moves the heading by whole turns up to rounding, and the exact flight goes on from the wrapped state. Lemmas/Aloft2 and Aloft3: error and Lipschitz constant of the computed derivative. Then the run lemma of C118. Theorems in `Props/PrecisionAloft`: `C121_2d_rk45`, `C121_2d_euler`, `C121_3d_rk45`, `C121_3d_euler`.
* **C122 Pressing against a limit.** Spec/Stops defines the number that stops. Lemmas/Stops projects the vector computations onto one element, so that the other elements may be anything. A Dormand-Prince step below the limit is exact, one at the limit stays there, and one across it falls short by at most 4/3 of its length, because only one weight of the method is negative; the final clipping does not increase distances. Induction over solver steps and calls. Theorems in `Props/Stops`: `C122_user`, `C122_dubins2d_speed`, `C122_dubins3d`, `C122_rot2d`, `C122_short`.
* **C123 Guiding centre and size of a relative orbit.** The centre is a pair of linear functionals whose rates are 0 and constant along any Runge-Kutta chain. Ellipse and swing are complex numbers that turn at the rate n; an Euler step multiplies them by 1 + i n T, a Dormand-Prince step by its stability function on the imaginary axis, whose distance from exp(i n h) and from modulus 1 was bounded for C97. Induction over solver steps and calls; the exact solution has the same centre and turns by exp(i n t). Theorems in `Props/Epicycle`: `C123_centre`, `C123_centre_rot2d`, `C123_centre_sixdof`, `C123_euler_equal`, `C123_euler_grows`, `C123_euler_rot2d`, `C123_euler_sixdof`, `C123_rk45`, `C123_rk45_rot2d`, `C123_rk45_sixdof`.
* **C124 A spinning 3d spacecraft under Euler.** As for C97 the quaternion is the first one times a complex number in the plane of w; an Euler step multiplies this by 1 + i |w| T / 2 = sqrt(1 + (|w| T / 2)^2) exp(i arctan(|w| T / 2)). The bounds on arctan follow from its derivative. For the length in general: the factor 1 + T^2 |w|^2 / 4 of a step, with rates that the final clipping keeps within the limits. Induction over calls. Theorems in `Props/SpinEuler`: `C124_behind`, `C124_spin`, `C124_length`.
* **C125 Thrust and the centre of a relative orbit.** X has a constant rate during a call and Y a rate affine in X, so every method of order 2 integrates both exactly and Euler misses only the term in T^2. Recursive specification over the calls that returned; induction over the history; the drift criterion by summing the changes of X. Theorems in `Props/Manoeuvre`: `C125_centre`, `C125_stops_drift`.
* **C126 How far thrust can take a point-mass spacecraft.** The position on the ellipse, as a complex number, turns at the rate n with a constant rate added by thrust; a Dormand-Prince step multiplies it by a number of modulus at most 1 and adds the rate times the step times another number of modulus at most 1. Together with the exact motion of the centre (C125); induction over the history with the elapsed time. Theorems in `Props/ThrustReach`: `C126_reach`, `C126_reach_euler`.
* **C127 Saving and restoring the state.** Simulation relation: equal up to name, state derivative and stored trajectory. Every operation preserves it, with equal outcomes and warnings, because no step reads these; a step that returns makes the derivatives equal. Induction over the history. The constructors use names and initial values only for the name and the state. Users' models are functions of time step, state and control, so models that keep data of their own are outside; the float32 first step of a new entity is in C107. Theorems in `Props/Restore`: `C127_restore`, `C127_derivative_stays`, `C127_constructors`.
* **C128 Braking distance.** Exact arithmetic. For one call the change of position plus m v^2 / 2 factors, with the limited thrust u, as (1 + u) (v + v') T / 2 for RK45 and (1 + u) v T + (u T)^2 / (2 m) for Euler, both non-negative; induction over the history. Equality by the closed form of one call. Theorems in `Props/Braking`: `C128_braking`, `C128_attained`, `C128_safe`.
* **C129 Printing a matrix.** Model/Print: strings as lists of characters, the output as a value even when the call raises, and Python's format .pg of a float. The output is described by columns of lines (Spec.columnOf); lists of pieces of equal length, length of the decimal digits, Int.log for the exponent. Spec.Reads says how a text is read as a number; the text of every finite number is read back (C129_reads) by induction on its digits. Arrays of dimension above 2, integers and the sign of -0.0 are not modelled. Theorems in `Props/Print`: `C129_table`, `C129_table_bare`, `C129_title_lost`, `C129_bad_labels`, `C129_late`, `C129_rounded`, `C129_reads`, `C129_numbers`, `C129_reads_unique`, `C129_alike`, `C129_shifted`.
* **C130 Dividing a duration into calls.** Exact arithmetic. The accepted steps of the calls, one after the other, are a schedule of the whole duration, and the right-hand sides do not depend on time. For the undamped integrator, induction over the calls with the sum and the sum of squares of the durations. Theorems in `Props/Divide`: `C130_integrator_one_call`, `C130_spacecraft_one_call`, `C130_divided`, `C130_total_time`, `C130_euler_lag`.
* **C131 Exactly which states an integrator can reach in a given time.** Exact arithmetic. The set (Spec.Attainable) is an invariant of the time elapsed: one call changes the bound minus the position by 2 T (t - p) (1 + u) + T^2 (1 - u^2). Conversely full thrust over the time |p| between two calls of equal length with opposite thrusts. Axis by axis; the three calls leave the other axes without thrust. Theorems in `Props/Attainable`: `C131_within`, `C131_reached`, `C131_rest_to_rest`.
* **C132 How fast the planar spacecraft turns.** Exact arithmetic. Angle and angular velocity of the spacecraft form a system of their own (attitude_map). One Dormand-Prince step under an upward moment is split by the stage at which the limit is first met (eight cases, linear arithmetic): the weighted mean of the limited stage rates is within the limits although one weight is negative, and the angular velocity does not fall. Chains by induction, downward moments by symmetry, calls by Realises.run_timed. The turn from rest to rest is C105 applied twice. Theorems in `Props/Slew`: `C132_turn`, `C132_rest_to_rest`.
* **C133 How an aircraft's heading changes.** Exact arithmetic. Spec.accumulated sums rate times duration over the calls that return. The heading has a constant rate during a call and no limit, so rkChain_const_rate gives its change for any tableau and any steps; wrapping adds whole turns. Induction over the history, failing calls leaving the state. 3d: invariant of Realises.run_euler with the clipped roll and speed and the monotonicity of tan. Theorems in `Props/Heading`: `C133_heading_2d`, `C133_same_heading`, `C133_heading_3d`.
* **C134 How fast an aircraft climbs, and that it cannot hover.** Exact arithmetic, invariants of Realises.run_euler: speed and flight path angle stay clipped to their limits (the wrap does nothing within a quarter turn), the altitude changes by the monotonicity of sin; for the advance the invariant carries the angle turned so far, at most R times the time, and cos is antitone on [0, pi]. The failure with RK45 mirrors C104_overspeed: one explicit Dormand-Prince step. Theorems in `Props/Climb`: `C134_climb`, `C134_no_hovering`, `C134_underspeed`.
* **C135 How fast an aircraft speeds up, pitches and rolls.** Exact arithmetic. The speed is a limited integrator of its own (rkChain_map); translated to limits symmetric around 0 (rkChain_affine) it is the angular velocity of C132, whose stage-by-stage analysis (chain_up) bounds the gain of a chain of Dormand-Prince steps; braking by symmetry; calls by Realises.run_timed. 3d: invariant of Realises.run_euler with euler_stop. Theorems in `Props/Gain`: `C135_speed`, `C135_attitude`.
* **C136 How close two aircraft can come.** Exact arithmetic: C104 for each aircraft and the triangle inequality. Theorems in `Props/DubinsSpan`, `Props/Separation`: `C136_separation_rk45`, `C136_separation_3d`, `C136_separation_2d`.

## 5. Where the code departs from its documentation or from what one would expect

Each is a theorem (or a witness beside one); the property's English statement says what the code does.

* `step` documents `state_dot` as the derivative at the end of the step: with Euler it is the one at the start (C15); with RK45 it is
  the one at the state before limiting and wrapping (C16).
* Wrapping with a centre other than 0 moves the angle by the centre at every step (C11). No shipped model uses one.
* Assigning to a property of an aircraft bypasses the limits until the end of the next step (C108).
* A NaN action passes the limits unnoticed (C03). A float32 scalar limit can be exceeded by rounding (C01).
* At an element pinned by equal limits the derivative may still point outwards (C14).
* `RK45_JAX` ignores derivative limits (C20), so a spacecraft pushed at its angular velocity limit turns further in a step than the limit
  allows (C95). A step of duration 0 or less makes every element of the state NaN; so does a single NaN in the derivative (C95).
* Euler and JAX steps leave an old `trajectory` in place (C18).
* `control_default` and `state_dot` hand out live arrays (C24).
* `Integrator1d/2d/3d` are abstract and cannot be instantiated; all entries of their `control_map` are index 0, so dict actions for
  `thrust_y`, `thrust_z` drive x (C27, C28). They also reject the quantities they export themselves (C54).
* The coefficients of the F-16's rotational equations are rounded to about four digits: each contribution to an angular
  acceleration is off by up to 0.04 % (C76).
* The default six-DOF spacecraft has quaternion 0: orientation raises, its attitude never changes and body thrust does nothing (C42);
  comparing two such spacecraft raises (C53).
* Any two suns are equal (C46). A Dubins aircraft at rest is not equal to itself (C53).
* `Dubins*.acceleration` has no normal component: it is not the derivative of `velocity` in a turn (C52).
* `number_list_to_np` reads a list as a shape: no list of values is ever converted, so the documented lists of per-axis limits raise (C56).
* `tgear` jumps at 0.77 (C61). `adc` is NaN above about 142 248 ft (C63).
* The low-level controller returns NaN when its arithmetic overflows (C65); a NaN state makes the Morelli model act with full
  control deflections and finite rates (C79).
* Morelli's damping terms enter the moments twice, once in `Morellif16` and once in `subf16_model` (C76).
* `controlled_f16` computes the stability roll rate with the deviation of alpha from trim instead of alpha (C72).
* The aerobench Euler integrator stops advancing when `t + step` rounds to `t`, and the function its `dense_output` returns reads the
  integrator when called, so it is wrong after further steps (C69).
* `SafetyLimits` checks are one-sided for some quantities, ignore the speed limit, and always fail without a controller (C70).
* `extract_single_result` rounds the row width and accepts out-of-range and -1 indices (C71).
* A frozen object is thawed by assigning a false value to its `_frozen` attribute (C68).

## 6. Axioms

`#print axioms` on each of the 505 theorems in MANIFEST.json reports a subset of `propext`, `Classical.choice`, `Quot.sound`:
437 use `propext`, `Classical.choice`, `Quot.sound`; 65 use `propext`, `Quot.sound`; 2 use none; 1 use `propext`. No `sorry`, no `axiom`, no `native_decide`, no `bv_decide`. Concrete witnesses are evaluated by the kernel (`decide +kernel`, `rfl`).
