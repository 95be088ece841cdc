{"id": "C01", "title": "Control saturation", "statement": "A successful entity.step(dt, action) has exactly the effect of applying, to the dynamics, the requested control vector with every non-NaN element moved to the nearest point of [control_min, control_max]; in particular the applied control is element-wise inside the limits, an in-range request is applied unchanged, an out-of-range action has the same effect as its saturated version, and whatever the action, the outcome is decided by the applied control alone.", "quantifier": "every entity, every scalar or array control limits with min<=max, every action kind, every step size, every float format", "why_tests_cant": "The input space is infinite (all floats, all lengths, all action kinds); a test samples a handful of vectors.", "anchors": ["safe_autonomy_dynamics/base_models.py::BaseEntity.step"]}
{"id": "C02", "title": "Limit warning is exact", "statement": "step emits the 'Control input exceeded limits' warning if and only if some element of the requested control vector is strictly below control_min or strictly above control_max, i.e. (for NaN-free requests) iff clipping changes the request; with limits given per channel, a one-element request is compared with every channel.", "quantifier": "every entity, action and limits", "why_tests_cant": "The input space is infinite (all floats, all lengths, all action kinds); a test samples a handful of vectors.", "anchors": ["safe_autonomy_dynamics/base_models.py::BaseEntity.step"]}
{"id": "C03", "title": "NaN controls bypass saturation", "statement": "A NaN element in an action is neither clipped nor warned about: it reaches the dynamics as NaN, and the other elements are still saturated.", "quantifier": "every entity, every action containing NaN entries", "why_tests_cant": "Requires reasoning about IEEE comparison semantics for every position and limit.", "anchors": ["safe_autonomy_dynamics/base_models.py::BaseEntity.step"]}
{"id": "C04", "title": "Dict actions", "statement": "With a dict action, the control vector handed to the limiter has, at each index of control_map, the value given for the actuator mapped there and the default value at every other index; when control_map is injective the order of the dict entries is irrelevant.", "quantifier": "every entity with an injective control_map, every dict whose keys are known, every ordering", "why_tests_cant": "The input space is infinite (all floats, all lengths, all action kinds); a test samples a handful of vectors.", "anchors": ["safe_autonomy_dynamics/base_models.py::BaseEntity.step"]}
{"id": "C05", "title": "Unknown actuator is rejected without effect", "statement": "A dict action containing a key outside control_map raises KeyError (AssertionError when the entity has no control_map) and an action of an unsupported type raises ValueError; in all cases state, state_dot, trajectory and control_default are left untouched and no warning is emitted.", "quantifier": "every entity, every dict with at least one unknown key in any position; every unsupported action", "why_tests_cant": "The input space is infinite (all floats, all lengths, all action kinds); a test samples a handful of vectors.", "anchors": ["safe_autonomy_dynamics/base_models.py::BaseEntity.step"]}
{"id": "C06", "title": "Default action", "statement": "step(dt), step(dt, None), step(dt, {}) and step(dt, control_default array) are indistinguishable, and no history of steps, failing or not, ever changes control_default, control limits or control_map.", "quantifier": "every entity with a control_map; every finite history of operations", "why_tests_cant": "Must hold after every finite history of calls; a test replays a few histories.", "anchors": ["safe_autonomy_dynamics/base_models.py::BaseEntity.step"]}
{"id": "C07", "title": "Failed steps are atomic", "statement": "If step raises, for whatever reason (bad action, shape mismatch, bad integration method, solver error), entity.state and entity.state_dot are what they were before the call.", "quantifier": "every entity, every action, step size and solver behaviour", "why_tests_cant": "The failing points are spread over the whole call tree; every crash point must be covered.", "anchors": ["safe_autonomy_dynamics/base_models.py::BaseEntity.step", "safe_autonomy_dynamics/base_models.py::BaseODESolverDynamics._step"]}
{"id": "C08", "title": "State limits hold after every step", "statement": "After any history ending in a successful step every state element that is not angle-wrapped and not NaN lies in [state_min, state_max], whatever the integrator returned.", "quantifier": "every dynamics model with state_min<=state_max, every solver result, every history, every float format", "why_tests_cant": "Must hold after every finite history of calls; a test replays a few histories.", "anchors": ["safe_autonomy_dynamics/base_models.py::BaseDynamics.step"]}
{"id": "C09", "title": "Wrapped angles stay in range", "statement": "After a successful step every angle-wrapped finite state element with centre c lies in [c-pi, c+pi) in exact arithmetic, and in [c-pi, c+pi] (both ends attainable) under every monotone rounding for c=0.", "quantifier": "every state, centre and format", "why_tests_cant": "Edge values are one ulp wide; needs every float.", "anchors": ["safe_autonomy_dynamics/base_models.py::BaseDynamics._wrap_angles"]}
{"id": "C10", "title": "Wrapping preserves the angle when the centre is 0", "statement": "For centre 0 (used by every shipped model) wrapping changes an angle by an integer multiple of 2 pi, is the identity on [-pi, pi), is idempotent, and two states wrap to the same value iff they differ by a multiple of 2 pi; elements with NaN centre are never changed. A step with wrapping agrees with the same step without it, up to that.", "quantifier": "every real angle", "why_tests_cant": "The input space is infinite (all floats, all lengths, all action kinds); a test samples a handful of vectors.", "anchors": ["safe_autonomy_dynamics/base_models.py::BaseDynamics._wrap_angles"]}
{"id": "C11", "title": "Wrapping with a non-zero centre shifts the angle", "statement": "For a centre c the wrapped value is congruent to state + c (not to state) modulo 2 pi: with c not a multiple of 2 pi the documented circular wrap does not preserve the angle, and repeated steps of a stationary system drift the element by c per step.", "quantifier": "every centre and angle; every number of steps; in exact arithmetic", "why_tests_cant": "Needs all centres and step counts; shipped tests use centre 0 only.", "anchors": ["safe_autonomy_dynamics/base_models.py::BaseDynamics._wrap_angles"]}
{"id": "C12", "title": "Limits and wrapping compose only inside one turn", "statement": "Clipping happens before wrapping: a wrapped element (centre 0) obeys its own limits after a step when [state_min, state_max] is inside [-pi, pi), and this can fail otherwise.", "quantifier": "every limits inside one turn, every state; a concrete violation outside", "why_tests_cant": "The input space is infinite (all floats, all lengths, all action kinds); a test samples a handful of vectors.", "anchors": ["safe_autonomy_dynamics/base_models.py::BaseDynamics.step"]}
{"id": "C13", "title": "State-derivative limits", "statement": "compute_state_dot returns a vector inside [state_dot_min, state_dot_max] whenever 0 lies in that interval and the model derivative is not NaN, for every model and state; a NaN model derivative comes out as NaN and no other one does.", "quantifier": "every model function, limits, state, control", "why_tests_cant": "The input space is infinite (all floats, all lengths, all action kinds); a test samples a handful of vectors.", "anchors": ["safe_autonomy_dynamics/base_models.py::BaseODESolverDynamics.compute_state_dot"]}
{"id": "C14", "title": "No outward derivative at a state limit", "statement": "compute_state_dot never points outwards at a limit: at or below state_min the derivative is >= 0, at or above state_max it is <= 0, strictly inside it is the model derivative clipped to the derivative limits, and a derivative pointing inwards is never suppressed. (An element pinned by equal limits state_min = state_max has a non-positive, possibly non-zero derivative.)", "quantifier": "every model function, limits, state, control", "why_tests_cant": "The input space is infinite (all floats, all lengths, all action kinds); a test samples a handful of vectors.", "anchors": ["safe_autonomy_dynamics/base_models.py::BaseODESolverDynamics._clip_state_dot_by_state_limits"]}
{"id": "C15", "title": "Euler step", "statement": "With integration_method='Euler' a step moves every unlimited, unwrapped element to exactly state + dt*state_dot evaluated once at the start state, and entity.state_dot afterwards is that start-of-step derivative (contrary to the documented end-of-step derivative, from which it differs in general).", "quantifier": "every model, state, control, dt", "why_tests_cant": "The input space is infinite (all floats, all lengths, all action kinds); a test samples a handful of vectors.", "anchors": ["safe_autonomy_dynamics/base_models.py::BaseODESolverDynamics._step", "safe_autonomy_dynamics/base_models.py::BaseDynamics.step"]}
{"id": "C16", "title": "RK45 end-of-step derivative", "statement": "With 'RK45', entity.state_dot after a step is compute_state_dot at the integrator's final (not yet clipped or wrapped) state with the applied control, and the new state is the clip+wrap of that same final state.", "quantifier": "every solver result", "why_tests_cant": "Must hold for every accepted-step schedule the adaptive solver may choose; a test observes one schedule per run.", "anchors": ["safe_autonomy_dynamics/base_models.py::BaseODESolverDynamics._step"]}
{"id": "C17", "title": "Integration method dispatch", "statement": "step succeeds only for 'RK45', 'RK45_JAX' (with use_jax) and 'Euler' (the last two only with trajectory_samples <= 0); every other string raises ValueError at step time and leaves the entity unchanged; use_jax without jax raises ImportError at construction.", "quantifier": "every method string, sample count, environment", "why_tests_cant": "All strings.", "anchors": ["safe_autonomy_dynamics/base_models.py::BaseODESolverDynamics._step", "safe_autonomy_dynamics/base_models.py::BaseDynamics.__init__"]}
{"id": "C18", "title": "Trajectory sampling", "statement": "With 'RK45' and trajectory_samples = n > 0 the solver is asked for exactly n sample times, the k-th being k*dt/n (k=1..n), strictly increasing and ending exactly at dt, and the stored trajectory is the solver's answer whose last row determines the new state; Euler and JAX steps leave the stored trajectory stale.", "quantifier": "every n, dt and solver answer", "why_tests_cant": "The input space is infinite (all floats, all lengths, all action kinds); a test samples a handful of vectors.", "anchors": ["safe_autonomy_dynamics/base_models.py::BaseODESolverDynamics._step"]}
{"id": "C19", "title": "Zero-duration step", "statement": "A step of duration 0 leaves every in-limit, in-range state unchanged for Euler and for any Runge-Kutta schedule, in exact arithmetic.", "quantifier": "every model, state and action", "why_tests_cant": "Must hold for every accepted-step schedule the adaptive solver may choose; a test observes one schedule per run.", "anchors": ["safe_autonomy_dynamics/base_models.py::BaseODESolverDynamics._step"]}
{"id": "C20", "title": "JAX integration ignores derivative limits", "statement": "The derivative integrated by 'RK45_JAX' is the raw model derivative, without state_dot limits and without suppression at state limits, so it can differ from what 'RK45' integrates; the final state is still clipped and wrapped.", "quantifier": "every model; concrete divergence", "why_tests_cant": "The input space is infinite (all floats, all lengths, all action kinds); a test samples a handful of vectors.", "anchors": ["safe_autonomy_dynamics/base_models.py::BaseODESolverDynamics.compute_state_dot_jax", "safe_autonomy_dynamics/base_models.py::BaseODESolverDynamics._step"]}
{"id": "C21", "title": "Control-affine form", "statement": "For every control-affine model the raw state derivative is f(x)+g(x)u: it is affine in the control (superposition of control differences) and a control whose length is not the number of columns of g(x) makes step raise.", "quantifier": "every model, state, pair of controls", "why_tests_cant": "The input space is infinite (all floats, all lengths, all action kinds); a test samples a handful of vectors.", "anchors": ["safe_autonomy_dynamics/base_models.py::BaseControlAffineODESolverDynamics._compute_state_dot"]}
{"id": "C22", "title": "Linear model validation", "statement": "BaseLinearODESolverDynamics accepts exactly the pairs (A, B) of 2-d arrays with A square and as many rows in B as columns in A, and raises AssertionError otherwise.", "quantifier": "every pair of shapes", "why_tests_cant": "The input space is infinite (all floats, all lengths, all action kinds); a test samples a handful of vectors.", "anchors": ["safe_autonomy_dynamics/base_models.py::BaseLinearODESolverDynamics.__init__"]}
{"id": "C23", "title": "Linear superposition", "statement": "For an unlimited linear model, one step (Euler or any Runge-Kutta schedule) is linear in (state, control): the result for a sum is the sum of the results.", "quantifier": "every A, B, schedule, states and controls; in exact arithmetic", "why_tests_cant": "Must hold for every accepted-step schedule the adaptive solver may choose; a test observes one schedule per run.", "anchors": ["safe_autonomy_dynamics/base_models.py::BaseLinearODESolverDynamics", "safe_autonomy_dynamics/base_models.py::BaseODESolverDynamics._step"]}
{"id": "C24", "title": "No aliasing of the state", "statement": "No sequence of reads of entity.state, assignments entity.state = arr, steps with array actions, and in-place writes by the user to any array they hold ever changes the entity's state or default control except through a step, an assignment, or a write to the live control_default array that the entity hands out or was built with; and step never writes to the caller's action array.", "quantifier": "every interleaving of user writes, reads, assignments and steps", "why_tests_cant": "Interleavings of aliasing operations are unbounded.", "anchors": ["safe_autonomy_dynamics/base_models.py::BaseEntity.step", "safe_autonomy_dynamics/base_models.py::BaseEntity.state"]}
{"id": "C25", "title": "Integrator kinematics", "statement": "With zero damping, constant thrust u and mass m, the point-mass integrator dynamics move from (x, v) to (x + v*T + u*T^2/(2m), v + u*T/m) under any accepted-step schedule of the Dormand-Prince method of total duration T, in exact arithmetic (1d, 2d, 3d).", "quantifier": "every state, thrust, mass, schedule", "why_tests_cant": "Must hold for every accepted-step schedule the adaptive solver may choose; a test observes one schedule per run.", "anchors": ["safe_autonomy_dynamics/integrators.py::generate_dynamics_matrices", "safe_autonomy_dynamics/integrators.py::IntegratorDynamics"]}
{"id": "C26", "title": "Integrator axes are independent", "statement": "For array controls in 1d/2d/3d modes, each axis' position and velocity depends only on that axis' own initial state and thrust, for Euler and any Runge-Kutta schedule (chosen afresh for every step, but the same for the two motions compared), with or without damping.", "quantifier": "every pair of states/controls agreeing on one axis; in exact arithmetic", "why_tests_cant": "Must hold for every accepted-step schedule the adaptive solver may choose; a test observes one schedule per run.", "anchors": ["safe_autonomy_dynamics/integrators.py::generate_dynamics_matrices"]}
{"id": "C27", "title": "Integrator dict actions drive only x", "statement": "For Integrator2d and Integrator3d the control_map sends thrust_x, thrust_y and thrust_z all to index 0, so for every dict action the y and z thrusts are the defaults and the last entry given wins the x thrust: dict actions can not thrust along y or z.", "quantifier": "every dict action", "why_tests_cant": "The input space is infinite (all floats, all lengths, all action kinds); a test samples a handful of vectors.", "anchors": ["safe_autonomy_dynamics/integrators.py::Integrator2d.__init__", "safe_autonomy_dynamics/integrators.py::Integrator3d.__init__"]}
{"id": "C28", "title": "Integrator equality and construction", "statement": "Integrator1d/2d/3d leave the abstract property 'orientation' undefined so no call of their constructors can succeed; and as comparison objects, Integrator2d and Integrator3d never equal an object of their own class, while Integrator2d may equal an Integrator1d that does not equal it.", "quantifier": "every constructor argument, every pair of states", "why_tests_cant": "The input space is infinite (all floats, all lengths, all action kinds); a test samples a handful of vectors.", "anchors": ["safe_autonomy_dynamics/integrators.py::Integrator1d", "safe_autonomy_dynamics/integrators.py::Integrator2d.__eq__", "safe_autonomy_dynamics/integrators.py::Integrator3d.__eq__", "safe_autonomy_dynamics/base_models.py::BaseEntity"]}
{"id": "C29", "title": "Clohessy-Wiltshire equations", "statement": "The CWH model derivative is exactly x''=3n^2x+2ny'+Fx/m, y''=-2nx'+Fy/m, z''=-n^2z+Fz/m; the textbook closed-form CW solution satisfies the coded equations for every initial state, n != 0 and time.", "quantifier": "every state, thrust, m, n, time; in exact arithmetic", "why_tests_cant": "Solutions for all times and states.", "anchors": ["safe_autonomy_dynamics/cwh/point_model.py::generate_cwh_matrices", "safe_autonomy_dynamics/cwh/point_model.py::CWHDynamics"]}
{"id": "C30", "title": "Cross-track decoupling", "statement": "CWHSpacecraft: for Euler and any Runge-Kutta schedule the (z, z_dot) evolution depends only on (z, z_dot, thrust_z) and the (x, y, x_dot, y_dot) evolution does not depend on (z, z_dot, thrust_z).", "quantifier": "every pair of states/controls, every schedule, every number of steps; in exact arithmetic", "why_tests_cant": "Must hold for every accepted-step schedule the adaptive solver may choose; a test observes one schedule per run.", "anchors": ["safe_autonomy_dynamics/cwh/point_model.py::generate_cwh_matrices"]}
{"id": "C31", "title": "Along-track first integral", "statement": "y_dot + 2 n x changes over a step of duration T by exactly thrust_y*T/m, for Euler and any Dormand-Prince schedule; with zero y-thrust it is conserved over any history of steps.", "quantifier": "every state, control, schedule and history; in exact arithmetic", "why_tests_cant": "Must hold for every accepted-step schedule the adaptive solver may choose; a test observes one schedule per run.", "anchors": ["safe_autonomy_dynamics/cwh/point_model.py::generate_cwh_matrices"]}
{"id": "C32", "title": "Relative orbital energy", "statement": "The coded CW derivative leaves E = (vx^2+vy^2+vz^2)/2 - 3/2 n^2 x^2 + 1/2 n^2 z^2 stationary without thrust, and with thrust F its rate of change is exactly F.v/m.", "quantifier": "every state, thrust, m, n; in exact arithmetic", "why_tests_cant": "The input space is infinite (all floats, all lengths, all action kinds); a test samples a handful of vectors.", "anchors": ["safe_autonomy_dynamics/cwh/point_model.py::generate_cwh_matrices"]}
{"id": "C33", "title": "Along-track translation invariance and equilibria", "statement": "Shifting y by any constant shifts the whole unthrusted or thrusted trajectory by that constant, for any schedule; every state (0, y0, 0, 0, 0, 0) is a fixed point of a zero-thrust step.", "quantifier": "every state, shift, control, schedule; in exact arithmetic", "why_tests_cant": "Must hold for every accepted-step schedule the adaptive solver may choose; a test observes one schedule per run.", "anchors": ["safe_autonomy_dynamics/cwh/point_model.py::generate_cwh_matrices"]}
{"id": "C34", "title": "Relative metrics", "statement": "entity_relative_position/velocity(b) seen from a is the negation of that of a seen from b, is zero for a itself, and adds up along a chain a->b->c; an unknown entity name raises KeyError and a missing simulator raises AttributeError.", "quantifier": "every simulator contents and entities", "why_tests_cant": "The input space is infinite (all floats, all lengths, all action kinds); a test samples a handful of vectors.", "anchors": ["safe_autonomy_dynamics/cwh/point_model.py::CWHSpacecraft.entity_relative_position", "safe_autonomy_dynamics/cwh/sixdof_model.py::SixDOFSpacecraft.entity_relative_position"]}
{"id": "C35", "title": "2d body-frame thrust", "statement": "CWHRotation2dDynamics: the acceleration due to thrust is the thrust divided by the mass, rotated by theta; its magnitude is independent of theta, and at theta=0 the in-plane derivative coincides with that of the point-mass CWH model.", "quantifier": "every state, control, m, n; in exact arithmetic", "why_tests_cant": "The input space is infinite (all floats, all lengths, all action kinds); a test samples a handful of vectors.", "anchors": ["safe_autonomy_dynamics/cwh/rotational_model.py::CWHRotation2dDynamics"]}
{"id": "C36", "title": "Effective rotational limits", "statement": "CWHRotation2dSpacecraft limits angular acceleration and velocity to the smaller of the spacecraft limit and the reaction-wheel-induced limit; every applied moment produces |wz_dot| <= that limit, and after every history ending in a step |wz| <= limit and theta is in [-pi, pi).", "quantifier": "every positive parameter, every action, every history", "why_tests_cant": "Must hold after every finite history of calls; a test replays a few histories.", "anchors": ["safe_autonomy_dynamics/cwh/rotational_model.py::CWHRotation2dSpacecraft.__init__", "safe_autonomy_dynamics/cwh/rotational_model.py::CWHRotation2dDynamics.__init__"]}
{"id": "C37", "title": "2d orientation", "statement": "The quaternion reported by CWHRotation2dSpacecraft is the unit quaternion of a rotation by theta about z; two entities with thetas differing by an odd multiple of 2 pi have the same orientation but opposite quaternions, hence compare unequal.", "quantifier": "every theta; in exact arithmetic", "why_tests_cant": "The input space is infinite (all floats, all lengths, all action kinds); a test samples a handful of vectors.", "anchors": ["safe_autonomy_dynamics/cwh/rotational_model.py::CWHRotation2dSpacecraft.quaternion", "safe_autonomy_dynamics/cwh/rotational_model.py::CWHRotation2dSpacecraft.__eq__"]}
{"id": "C38", "title": "Quaternion norm", "statement": "The coded quaternion kinematics keep |q| stationary for every q and w, but nothing renormalises: one Euler step multiplies |q|^2 by exactly 1+(dt^2/4)|w|^2 whenever w is strictly inside its limits.", "quantifier": "every quaternion, rate and dt; in exact arithmetic", "why_tests_cant": "The input space is infinite (all floats, all lengths, all action kinds); a test samples a handful of vectors.", "anchors": ["safe_autonomy_dynamics/cwh/sixdof_model.py::SixDOFDynamics.state_transition_system"]}
{"id": "C39", "title": "apply_quat is a rotation", "statement": "apply_quat(x, q) preserves inner products up to the factor |q|^4, hence is an isometry for unit q, agrees with the rotation matrix of q, and composes as the Hamilton product; hamilton_product is associative and norm-multiplicative.", "quantifier": "every vector and quaternion; in exact arithmetic", "why_tests_cant": "The input space is infinite (all floats, all lengths, all action kinds); a test samples a handful of vectors.", "anchors": ["safe_autonomy_dynamics/cwh/sixdof_model.py::SixDOFDynamics.apply_quat", "safe_autonomy_dynamics/cwh/sixdof_model.py::SixDOFDynamics.hamilton_product"]}
{"id": "C40", "title": "Quaternion kinematics are body-frame", "statement": "The coded q derivative is one half of the Hamilton product of q with the pure quaternion of the body rates.", "quantifier": "every quaternion and rate; in exact arithmetic", "why_tests_cant": "The input space is infinite (all floats, all lengths, all action kinds); a test samples a handful of vectors.", "anchors": ["safe_autonomy_dynamics/cwh/sixdof_model.py::SixDOFDynamics.state_transition_system"]}
{"id": "C41", "title": "Rigid-body invariants", "statement": "Without torque, rotational kinetic energy and the squared angular momentum are stationary under the coded angular acceleration, for every rate and every positive principal inertia; off-diagonal inertia entries have no influence on any derivative.", "quantifier": "every rate, inertia matrix", "why_tests_cant": "The input space is infinite (all floats, all lengths, all action kinds); a test samples a handful of vectors.", "anchors": ["safe_autonomy_dynamics/cwh/sixdof_model.py::SixDOFDynamics.state_transition_system", "safe_autonomy_dynamics/cwh/sixdof_model.py::SixDOFDynamics.state_transition_input"]}
{"id": "C42", "title": "Default attitude is the zero quaternion and is inert", "statement": "A SixDOFSpacecraft built without quaternion arguments has q=(0,0,0,0); reading its orientation raises, the quaternion remains zero after every step under Euler and any Runge-Kutta schedule, and body-frame thrust never influences its motion.", "quantifier": "every history of actions, every schedule; in exact arithmetic", "why_tests_cant": "Must hold after every finite history of calls; a test replays a few histories.", "anchors": ["safe_autonomy_dynamics/cwh/sixdof_model.py::SixDOFSpacecraftValidator", "safe_autonomy_dynamics/cwh/sixdof_model.py::SixDOFDynamics.state_transition_input"]}
{"id": "C43", "title": "Six-DOF limits", "statement": "SixDOFSpacecraft control limits are +-thrust_control_limit and +-(I_ii * min(ang_acc_limit, wheel limit)) per axis; after every history ending in a step every |w_i| <= min(ang_vel_limit, wheel limit).", "quantifier": "every positive parameter, every history", "why_tests_cant": "Must hold after every finite history of calls; a test replays a few histories.", "anchors": ["safe_autonomy_dynamics/cwh/sixdof_model.py::SixDOFSpacecraft.__init__", "safe_autonomy_dynamics/cwh/sixdof_model.py::SixDOFDynamics.__init__"]}
{"id": "C44", "title": "Consistency between spacecraft models", "statement": "The six-DOF translational derivative coincides with the point-mass CWH derivative for Hill-frame thrust, and for body-frame thrust with identity attitude; for an attitude rotated by theta about z it coincides with the 2d rotational model.", "quantifier": "every state, thrust, theta, m, n; in exact arithmetic", "why_tests_cant": "The input space is infinite (all floats, all lengths, all action kinds); a test samples a handful of vectors.", "anchors": ["safe_autonomy_dynamics/cwh/sixdof_model.py::SixDOFDynamics", "safe_autonomy_dynamics/cwh/rotational_model.py::CWHRotation2dDynamics", "safe_autonomy_dynamics/cwh/point_model.py::CWHDynamics"]}
{"id": "C45", "title": "Sun motion", "statement": "SunEntity's angle after a step of duration T is exactly theta + n*T under Euler and every Dormand-Prince schedule, over any number of steps; it is never wrapped, and any array action is ignored.", "quantifier": "every n, theta, schedule, history", "why_tests_cant": "Must hold for every accepted-step schedule the adaptive solver may choose; a test observes one schedule per run.", "anchors": ["safe_autonomy_dynamics/cwh/sun_model.py::SunDynamics", "safe_autonomy_dynamics/cwh/sun_model.py::SunEntity"]}
{"id": "C46", "title": "Sun equality", "statement": "Every SunEntity equals every other SunEntity whatever their states and parameters, and nothing else.", "quantifier": "every pair of entities", "why_tests_cant": "The input space is infinite (all floats, all lengths, all action kinds); a test samples a handful of vectors.", "anchors": ["safe_autonomy_dynamics/cwh/sun_model.py::SunEntity.__eq__"]}
{"id": "C47", "title": "Dubins velocity", "statement": "The velocity vector of a Dubins aircraft has magnitude |v| and is the time derivative of position used by the dynamics, in 2d and 3d; in double precision each component is within |v| (2^-21 + 3 delta) + 2^-149 of v (cos heading cos gamma, sin heading cos gamma, -sin gamma), delta being the error of the library's sine and cosine.", "quantifier": "every heading, gamma, roll and speed", "why_tests_cant": "The input space is infinite (all floats, all lengths, all action kinds); a test samples a handful of vectors.", "anchors": ["safe_autonomy_dynamics/dubins.py::BaseDubinsAircraft.velocity", "safe_autonomy_dynamics/dubins.py::Dubins2dDynamics", "safe_autonomy_dynamics/dubins.py::Dubins3dDynamics"]}
{"id": "C48", "title": "Dubins limits", "statement": "After every history ending in a successful step: speed in [v_min, v_max] (float32 of them), heading in [-pi, pi), and for Dubins3d gamma and roll inside their limits when those limits are inside [-pi, pi).", "quantifier": "every action, parameters, history, solver", "why_tests_cant": "Must hold after every finite history of calls; a test replays a few histories.", "anchors": ["safe_autonomy_dynamics/dubins.py::Dubins2dAircraft.__init__", "safe_autonomy_dynamics/dubins.py::Dubins3dAircraft.__init__"]}
{"id": "C49", "title": "Straight flight", "statement": "With zero control (and zero roll in 3d) a Dubins aircraft flies in a straight line: after duration T under Euler and any Dormand-Prince schedule the position has moved by exactly T*velocity and heading, gamma, roll and speed are unchanged.", "quantifier": "every state with limits respected, schedule; in exact arithmetic", "why_tests_cant": "Must hold for every accepted-step schedule the adaptive solver may choose; a test observes one schedule per run.", "anchors": ["safe_autonomy_dynamics/dubins.py::Dubins2dDynamics", "safe_autonomy_dynamics/dubins.py::Dubins3dDynamics"]}
{"id": "C50", "title": "Coordinated turn", "statement": "In 3d the heading rate is g*tan(roll)/v: it has the sign of roll for v>0 and |roll|<pi/2, vanishes at zero roll, and does not depend on position, heading, gamma or controls.", "quantifier": "every state; in exact arithmetic", "why_tests_cant": "The input space is infinite (all floats, all lengths, all action kinds); a test samples a handful of vectors.", "anchors": ["safe_autonomy_dynamics/dubins.py::Dubins3dDynamics.state_transition_system"]}
{"id": "C51", "title": "Translation invariance of Dubins flight", "statement": "Translating the initial position translates the position after any sequence of actions by the same vector and changes nothing else, for Euler and any Runge-Kutta schedule.", "quantifier": "every state, translation, action sequence, schedule; in exact arithmetic", "why_tests_cant": "Must hold for every accepted-step schedule the adaptive solver may choose; a test observes one schedule per run.", "anchors": ["safe_autonomy_dynamics/dubins.py::Dubins2dDynamics", "safe_autonomy_dynamics/dubins.py::Dubins3dDynamics"]}
{"id": "C52", "title": "Acceleration property", "statement": "The acceleration reported by a Dubins aircraft is the stored speed derivative times the unit velocity: its magnitude is |v_dot| and it is parallel to velocity, for every state with v != 0; with v = 0 it is NaN. In double precision each component is the speed derivative times the reported velocity over the speed up to rounding in single precision, also for speeds and derivatives too large for single precision, and within |v_dot| (2^-19 + 3 delta) + 2^-146 of v_dot times the direction of flight; it is a number of single precision where speed and derivative are.", "quantifier": "every state and state derivative", "why_tests_cant": "The input space is infinite (all floats, all lengths, all action kinds); a test samples a handful of vectors.", "anchors": ["safe_autonomy_dynamics/dubins.py::Dubins2dAircraft.acceleration", "safe_autonomy_dynamics/dubins.py::Dubins3dAircraft.acceleration"]}
{"id": "C53", "title": "Entity equality", "statement": "CWHSpacecraft, CWHRotation2dSpacecraft, SixDOFSpacecraft and Dubins equality is symmetric and, for NaN-free moving entities, reflexive; a Dubins aircraft with v = 0 is not equal to itself; equality implies equal position and velocity and ignores name, mass and limits.", "quantifier": "every pair of entities", "why_tests_cant": "The input space is infinite (all floats, all lengths, all action kinds); a test samples a handful of vectors.", "anchors": ["safe_autonomy_dynamics/dubins.py::Dubins2dAircraft.__eq__", "safe_autonomy_dynamics/dubins.py::Dubins3dAircraft.__eq__", "safe_autonomy_dynamics/cwh/point_model.py::CWHSpacecraft.__eq__", "safe_autonomy_dynamics/cwh/sixdof_model.py::SixDOFSpacecraft.__eq__"]}
{"id": "C54", "title": "Unit conversion", "statement": "A configuration value given as a quantity is converted to the documented unit: two quantities denoting the same physical magnitude give the same configuration, plain numbers are taken as already converted, and a quantity of another dimension raises a validation error (never a silently wrong value). Converting a value exported by *_with_units of an entity gives the value back.", "quantifier": "every magnitude and unit", "why_tests_cant": "The input space is infinite (all floats, all lengths, all action kinds); a test samples a handful of vectors.", "anchors": ["safe_autonomy_dynamics/base_models.py::build_unit_conversion_validator_fn", "safe_autonomy_dynamics/base_models.py::BaseUnits"]}
{"id": "C55", "title": "Config validation", "statement": "Constructing an entity succeeds only if name is given and every keyword belongs to the validator's fields; the initial state is exactly the validated configuration in the documented order (rounded to float32), missing fields taking their defaults.", "quantifier": "every keyword set", "why_tests_cant": "The input space is infinite (all floats, all lengths, all action kinds); a test samples a handful of vectors.", "anchors": ["safe_autonomy_dynamics/base_models.py::BaseEntityValidator", "safe_autonomy_dynamics/base_models.py::BaseEntity.__init__", "safe_autonomy_dynamics/cwh/point_model.py::CWHSpacecraft._build_state"]}
{"id": "C56", "title": "number_list_to_np", "statement": "A number is broadcast to the requested shape (as float32 only if the shape has a dimension and the number is not finite of magnitude 3.4e38 or more), an ndarray is returned only if shape and dtype match exactly; a list is interpreted as a shape rather than as values, so no list of limits is ever converted to an array holding its values.", "quantifier": "every input", "why_tests_cant": "The input space is infinite (all floats, all lengths, all action kinds); a test samples a handful of vectors.", "anchors": ["safe_autonomy_dynamics/utils.py::number_list_to_np"]}
{"id": "C57", "title": "fix truncates", "statement": "fix rounds towards zero: |fix x| <= |x| < |fix x|+1 with matching sign, and it raises for NaN, infinities and non-float arguments.", "quantifier": "every float", "why_tests_cant": "The input space is infinite (all floats, all lengths, all action kinds); a test samples a handful of vectors.", "anchors": ["safe_autonomy_dynamics/external/aerobench/util.py::fix"]}
{"id": "C58", "title": "Aerodynamic tables are never read out of range", "statement": "For every finite alpha, beta, elevator, altitude, mach and power, every F-16 table look-up uses indices inside its table (no IndexError, no negative-index wraparound).", "quantifier": "every real input", "why_tests_cant": "The input space is infinite (all floats, all lengths, all action kinds); a test samples a handful of vectors.", "anchors": ["safe_autonomy_dynamics/external/aerobench/lowlevel/cx.py::cx", "safe_autonomy_dynamics/external/aerobench/lowlevel/cl.py::cl", "safe_autonomy_dynamics/external/aerobench/lowlevel/thrust.py::thrust"]}
{"id": "C59", "title": "Aerodynamic tables are bilinear interpolants", "statement": "cx, cm, cz, cl, cn, dlda, dldr, dnda, dndr and dampp equal the textbook (bi)linear interpolation of their tables on a 5-degree alpha grid, reproduce the tabulated value at grid points, stay between the surrounding grid values inside the table, and extrapolate linearly outside; the tables hold the F-16 data.", "quantifier": "every real input", "why_tests_cant": "The input space is infinite (all floats, all lengths, all action kinds); a test samples a handful of vectors.", "anchors": ["safe_autonomy_dynamics/external/aerobench/lowlevel/cx.py::cx", "safe_autonomy_dynamics/external/aerobench/lowlevel/cl.py::cl", "safe_autonomy_dynamics/external/aerobench/lowlevel/dampp.py::dampp"]}
{"id": "C60", "title": "Rolling and yawing moments are odd in sideslip", "statement": "cl(alpha,-beta) = -cl(alpha,beta) and cn likewise; both vanish at zero sideslip.", "quantifier": "every alpha, beta", "why_tests_cant": "The input space is infinite (all floats, all lengths, all action kinds); a test samples a handful of vectors.", "anchors": ["safe_autonomy_dynamics/external/aerobench/lowlevel/cl.py::cl", "safe_autonomy_dynamics/external/aerobench/lowlevel/cn.py::cn"]}
{"id": "C61", "title": "Throttle gearing", "statement": "tgear maps [0,1] into [0,100], is increasing on each side of 0.77, but jumps down by 0.0012 at 0.77 (not monotone).", "quantifier": "every throttle; in exact arithmetic", "why_tests_cant": "The input space is infinite (all floats, all lengths, all action kinds); a test samples a handful of vectors.", "anchors": ["safe_autonomy_dynamics/external/aerobench/lowlevel/tgear.py::tgear"]}
{"id": "C62", "title": "Engine lag", "statement": "rtau is continuous, antitone and in [0.1, 1]; pdot drives power towards the command: it is zero when power equals command, non-negative at power 0 and non-positive at power 100 for commands in [0,100], so [0,100] is invariant under Euler steps of at most 0.2 s.", "quantifier": "every power, command, number of steps; in exact arithmetic", "why_tests_cant": "Must hold after every finite history of calls; a test replays a few histories.", "anchors": ["safe_autonomy_dynamics/external/aerobench/lowlevel/rtau.py::rtau", "safe_autonomy_dynamics/external/aerobench/lowlevel/pdot.py::pdot"]}
{"id": "C63", "title": "Air data computer", "statement": "For every altitude the speed of sound is positive (temperature never below 390 R), mach is proportional to airspeed, and dynamic pressure is non-negative and even in airspeed for altitudes below 1/0.703e-5 ft.", "quantifier": "every altitude and airspeed; in exact arithmetic", "why_tests_cant": "The input space is infinite (all floats, all lengths, all action kinds); a test samples a handful of vectors.", "anchors": ["safe_autonomy_dynamics/external/aerobench/lowlevel/adc.py::adc"]}
{"id": "C64", "title": "Thrust table", "statement": "thrust equals idle at power 0, military at power 50 and max at power 100, is affine in power on each side of 50 and continuous at 50, and negative altitudes behave like altitude 0.01; the tables hold the F-16 engine data.", "quantifier": "every power, altitude, mach", "why_tests_cant": "The input space is infinite (all floats, all lengths, all action kinds); a test samples a handful of vectors.", "anchors": ["safe_autonomy_dynamics/external/aerobench/lowlevel/thrust.py::thrust"]}
{"id": "C65", "title": "Low-level controller saturation", "statement": "get_u_deg saturates every command: each of throttle, elevator, aileron and rudder is inside its limits ([0,1], [-25,25], [-21.5,21.5], [-30,30] degrees) or NaN, and never NaN when the state and reference have at least 16 and 4 entries of magnitude at most 2^1000 (beyond that an overflow can give NaN). The commands are the trim values plus the linear feedback of the deviation from trim and of the integrators, and at trim with zero integrators exactly the trim surfaces. Shorter states and references raise.", "quantifier": "every state and reference", "why_tests_cant": "The input space is infinite (all floats, all lengths, all action kinds); a test samples a handful of vectors.", "anchors": ["safe_autonomy_dynamics/external/aerobench/lowlevel/low_level_controller.py::LowLevelController.get_u_deg"]}
{"id": "C66", "title": "F-16 wind-axis kinematics", "statement": "The airspeed, alpha and beta derivatives of subf16_model are the ones induced by its body-axis force equations: differentiating the body velocity (vt cos a cos b, vt sin b, vt sin a cos b) along them gives exactly the computed body accelerations, for every aerodynamic model.", "quantifier": "every state with vt, cos beta nonzero; in exact arithmetic", "why_tests_cant": "The input space is infinite (all floats, all lengths, all action kinds); a test samples a handful of vectors.", "anchors": ["safe_autonomy_dynamics/external/aerobench/lowlevel/subf16_model.py::subf16_model"]}
{"id": "C67", "title": "F-16 navigation", "statement": "The north/east/vertical speeds of subf16_model always have combined magnitude |vt|, and the Euler-angle rates invert exactly to the body rates p, q, r.", "quantifier": "every state (cos theta nonzero for the rates); in exact arithmetic", "why_tests_cant": "The input space is infinite (all floats, all lengths, all action kinds); a test samples a handful of vectors.", "anchors": ["safe_autonomy_dynamics/external/aerobench/lowlevel/subf16_model.py::subf16_model"]}
{"id": "C68", "title": "Freezable", "statement": "After freeze_attrs no assignment can create an attribute, and every failing assignment raises TypeError and changes nothing; existing attributes stay assignable.", "quantifier": "every history of assignments", "why_tests_cant": "Must hold after every finite history of calls; a test replays a few histories.", "anchors": ["safe_autonomy_dynamics/external/aerobench/util.py::Freezable"]}
{"id": "C69", "title": "Fixed-step Euler integrator", "statement": "util.Euler advances time strictly, never passes tend, reaches status 'finished' exactly when t = tend, after at most ceil((tend-tstart)/step) calls, and is unchanged by further calls; its dense output interpolates linearly between the last two states.", "quantifier": "every derivative function, step, horizon, number of calls", "why_tests_cant": "Must hold after every finite history of calls; a test replays a few histories.", "anchors": ["safe_autonomy_dynamics/external/aerobench/util.py::Euler"]}
{"id": "C70", "title": "Safety verification", "statement": "SafetyLimitsVerifier.verify with a low-level controller passes iff every tick satisfies all configured limits; the configured speed limit is never checked, beta and ps are only bounded above; without a controller no non-empty result passes.", "quantifier": "every result table and limits", "why_tests_cant": "The input space is infinite (all floats, all lengths, all action kinds); a test samples a handful of vectors.", "anchors": ["safe_autonomy_dynamics/external/aerobench/util.py::SafetyLimitsVerifier.verify"]}
{"id": "C71", "title": "Multi-aircraft extraction", "statement": "extract_single_result returns exactly the columns of the requested aircraft, and the per-aircraft results put side by side give back the full state table.", "quantifier": "every table, index", "why_tests_cant": "The input space is infinite (all floats, all lengths, all action kinds); a test samples a handful of vectors.", "anchors": ["safe_autonomy_dynamics/external/aerobench/util.py::extract_single_result"]}
{"id": "C72", "title": "controlled_f16 layout", "statement": "controlled_f16 returns the 13 model derivatives followed by the three integrator error derivatives, and the actuator vector with surfaces converted to radians and the references copied; an unknown model name raises AssertionError.", "quantifier": "every state, reference", "why_tests_cant": "The input space is infinite (all floats, all lengths, all action kinds); a test samples a handful of vectors.", "anchors": ["safe_autonomy_dynamics/external/aerobench/controlled_f16.py::controlled_f16"]}
{"id": "C73", "title": "Trim cost and constraints", "statement": "conf16 is idempotent, only touches phi, theta, p, q, r and power, and makes the coordinated-turn rates consistent with a pure turn rate about the vertical; clf16's cost is non-negative, zero iff all penalised derivatives vanish; without a model it is the cost of the Stevens model; an orientation code outside 1..4 raises.", "quantifier": "every state, control, constants", "why_tests_cant": "The input space is infinite (all floats, all lengths, all action kinds); a test samples a handful of vectors.", "anchors": ["safe_autonomy_dynamics/external/aerobench/lowlevel/conf16.py::conf16", "safe_autonomy_dynamics/external/aerobench/lowlevel/clf16.py::clf16"]}
{"id": "C74", "title": "Actuators by name", "statement": "For the CWH, planar, six-DOF and Dubins classes, after any history, a dict action has the effect of the array action holding the given values at the documented positions and 0 for every actuator not named; an undocumented name raises KeyError and changes nothing; the Sun has no actuators and rejects every dict.", "quantifier": "every class, construction, history, dict and step length", "why_tests_cant": "Must hold after every finite history of calls; a test replays a few histories.", "anchors": ["safe_autonomy_dynamics/cwh/point_model.py::CWHSpacecraft", "safe_autonomy_dynamics/cwh/rotational_model.py::CWHRotation2dSpacecraft", "safe_autonomy_dynamics/cwh/sixdof_model.py::SixDOFSpacecraft", "safe_autonomy_dynamics/dubins.py::Dubins2dAircraft", "safe_autonomy_dynamics/dubins.py::Dubins3dAircraft", "safe_autonomy_dynamics/base_models.py::BaseEntity.step"]}
{"id": "C75", "title": "F-16 energy balance", "statement": "Along any motion whose time derivative is what subf16_model returns, kinetic plus potential energy per mass changes by exactly the power of the aerodynamic and propulsive force; hence the aircraft loses energy exactly when that force opposes the motion.", "quantifier": "every flyable state, control, model name, multiplier setting; in exact arithmetic", "why_tests_cant": "The input space is infinite (all floats, all lengths, all action kinds); a test samples a handful of vectors.", "anchors": ["safe_autonomy_dynamics/external/aerobench/lowlevel/subf16_model.py::subf16_model"]}
{"id": "C76", "title": "F-16 rotational dynamics", "statement": "Euler's rigid body equation with the published inertia and a spinning engine has exactly one angular acceleration for each state and control, and the angular accelerations subf16_model returns are that one up to 0.04 percent of each contribution (coefficients rounded to four digits); without body rates and moments they are exactly 0.", "quantifier": "every flyable state, control, model name", "why_tests_cant": "The input space is infinite (all floats, all lengths, all action kinds); a test samples a handful of vectors.", "anchors": ["safe_autonomy_dynamics/external/aerobench/lowlevel/subf16_model.py::subf16_model"]}
{"id": "C77", "title": "F-16 invariances", "statement": "Horizontal position influences no output of subf16_model; throttle influences only the power rate; heading influences only the north and east rates and turning it by an angle turns the horizontal velocity by that angle; the power rate is pdot of the power and the throttle gearing.", "quantifier": "every state, control, arithmetic (the rotation by an angle: real arithmetic)", "why_tests_cant": "The input space is infinite (all floats, all lengths, all action kinds); a test samples a handful of vectors.", "anchors": ["safe_autonomy_dynamics/external/aerobench/lowlevel/subf16_model.py::subf16_model", "safe_autonomy_dynamics/external/aerobench/lowlevel/pdot.py::pdot", "safe_autonomy_dynamics/external/aerobench/lowlevel/tgear.py::tgear"]}
{"id": "C78", "title": "F-16 symmetric flight", "statement": "With wings level, no sideslip, no roll or yaw rate and neutral aileron and rudder, sideslip, bank and heading have rate 0, and so have roll and yaw unless the aircraft pitches, when the engine's angular momentum makes it roll and yaw in proportion to the pitch rate.", "quantifier": "every symmetric flyable state, throttle, elevator, model name; in exact arithmetic", "why_tests_cant": "The input space is infinite (all floats, all lengths, all action kinds); a test samples a handful of vectors.", "anchors": ["safe_autonomy_dynamics/external/aerobench/lowlevel/subf16_model.py::subf16_model"]}
{"id": "C79", "title": "F-16 out-of-range and NaN inputs", "statement": "With the polynomial model a surface deflection beyond its limit, or NaN, acts as the limit (NaN as the positive one); NaN airspeed, angle of attack or altitude never yields a result; with the tabulated model NaN sideslip or elevator raises; a NaN integrator state passes silently through controlled_f16: the 13 aircraft rates are finite and those of full positive deflection.", "quantifier": "every state, control, reference, arithmetic (limits and the silent case: exact arithmetic)", "why_tests_cant": "The input space is infinite (all floats, all lengths, all action kinds); a test samples a handful of vectors.", "anchors": ["safe_autonomy_dynamics/external/aerobench/lowlevel/subf16_model.py::subf16_model", "safe_autonomy_dynamics/external/aerobench/controlled_f16.py::controlled_f16", "safe_autonomy_dynamics/external/aerobench/lowlevel/morellif16.py::Morellif16", "safe_autonomy_dynamics/external/aerobench/lowlevel/low_level_controller.py::LowLevelController.get_u_deg"]}
{"id": "C80", "title": "Array actions of the wrong length", "statement": "For the classes with one limit per actuator (planar rotating spacecraft, six-degrees-of-freedom spacecraft, Dubins aircraft) a one-element array or list is repeated for every actuator, in every respect as if written out; any other wrong length raises ValueError without a warning and without changing anything. For the point-mass spacecraft every length other than three raises and state and state derivative stay as they are.", "quantifier": "every class, configuration, arithmetic, solver, history, step size, dtype, array", "why_tests_cant": "The input space is infinite (all floats, all lengths, all action kinds); a test samples a handful of vectors.", "anchors": ["safe_autonomy_dynamics/base_models.py::BaseEntity.step", "safe_autonomy_dynamics/base_models.py::BaseEntity", "safe_autonomy_dynamics/cwh/rotational_model.py::CWHRotation2dSpacecraft", "safe_autonomy_dynamics/cwh/sixdof_model.py::SixDOFSpacecraft", "safe_autonomy_dynamics/dubins.py::Dubins2dAircraft", "safe_autonomy_dynamics/dubins.py::Dubins3dAircraft", "safe_autonomy_dynamics/cwh/point_model.py::CWHSpacecraft"]}
{"id": "C81", "title": "Order of accuracy on linear models", "statement": "For an unlimited linear model one step of any duration T >= 0 differs from the exact solution of x' = Ax + Bu by at most exp(2aT)(initial error + 2 a^p T exp(aT) d h^p), where a bounds the absolute row sums of A, d the initial rate, h the internal step sizes, and p is 5 for RK45 and 1 for Euler. For the point-mass spacecraft the same holds over any history of calls with constant requested thrust, in particular against the closed-form Clohessy-Wiltshire solution while coasting, so that the error can be made smaller than any tolerance.", "quantifier": "every matrix, state, control, duration, schedule of internal steps and history of calls (real arithmetic); in exact arithmetic", "why_tests_cant": "Must hold for every accepted-step schedule the adaptive solver may choose; a test observes one schedule per run.", "anchors": ["safe_autonomy_dynamics/base_models.py::BaseLinearODESolverDynamics", "safe_autonomy_dynamics/base_models.py::BaseODESolverDynamics", "safe_autonomy_dynamics/cwh/point_model.py::CWHSpacecraft"]}
{"id": "C82", "title": "Orientation agrees with the motion", "statement": "For the Dubins aircraft the reported orientation applied to [1,0,0] is a unit vector and the reported velocity is the speed times it, whatever the roll; in 3d, flying forward with pitch and roll within a quarter turn, the heading increases exactly when the body y axis points below the horizon (z down). For the planar spacecraft thrust along the body axes accelerates by thrust over mass turned by the orientation. For the six-degrees-of-freedom spacecraft with body-frame thrust the same holds up to a factor, the squared norm of the stored quaternion, because the orientation normalises it and the dynamics do not. The point mass reports the identity; the Sun raises.", "quantifier": "every state and history, every thrust (real arithmetic); in exact arithmetic", "why_tests_cant": "The input space is infinite (all floats, all lengths, all action kinds); a test samples a handful of vectors.", "anchors": ["safe_autonomy_dynamics/dubins.py::BaseDubinsAircraft.orientation", "safe_autonomy_dynamics/dubins.py::BaseDubinsAircraft.velocity", "safe_autonomy_dynamics/cwh/rotational_model.py::CWHRotation2dSpacecraft.orientation", "safe_autonomy_dynamics/cwh/sixdof_model.py::SixDOFSpacecraft.orientation", "safe_autonomy_dynamics/cwh/point_model.py::CWHSpacecraft.orientation"]}
{"id": "C83", "title": "A failed integration is accepted silently", "statement": "The success flag and the times of the ODE solver's answer are never examined: with two solvers that answer with the same rows of states, every history gives the same states, derivatives, outcomes and warnings. Hence a step whose integration stops half way completes without exception or warning and reports the state reached as the state after the whole step.", "quantifier": "every solver, entity, history, action and step length", "why_tests_cant": "Must hold after every finite history of calls; a test replays a few histories.", "anchors": ["safe_autonomy_dynamics/base_models.py::BaseODESolverDynamics._step"]}
{"id": "C84", "title": "Rounding error of a step", "statement": "In any arithmetic that rounds with relative error eps (and a fixed underflow error), an Euler step of an unlimited linear model away from overflow is finite and every component of the new state and of the recorded derivative differs from the exact x + T (A x + B u) and A x + B u by at most the error of a fixed number of roundings (max n m + 4) times the sum of the absolute values of its terms. For the point-mass spacecraft in IEEE double precision this is 2^-49 times those terms, including the rounding of the entries of the Clohessy-Wiltshire matrices and of 1/m.", "quantifier": "every linear model, state, control, duration; every rounding with a relative error; double precision with arguments up to 2^200", "why_tests_cant": "The input space is infinite (all floats, all lengths, all action kinds); a test samples a handful of vectors.", "anchors": ["safe_autonomy_dynamics/base_models.py::BaseLinearODESolverDynamics", "safe_autonomy_dynamics/base_models.py::BaseODESolverDynamics._step", "safe_autonomy_dynamics/cwh/point_model.py::generate_cwh_matrices", "safe_autonomy_dynamics/cwh/point_model.py::CWHSpacecraft"]}
{"id": "C85", "title": "A whole simulation in double precision", "statement": "A point-mass spacecraft stepped N times with Euler in IEEE double precision, under a constant requested thrust, stays finite, every step succeeds, and at the end its positions and velocities differ from the exact solution of the Clohessy-Wiltshire equations (for zero thrust: the textbook closed form) by at most an explicit bound: exp(a T + N 2^-49) times the sum of a rounding part, 2^-49 ((N + a T) Phi + T mu + N 2^-400), and a method part, a (a Phi + mu) eta T, where the steps are at most eta long.", "quantifier": "every history of steps with one thrust, every state, mass, mean motion and step sizes up to 2^200", "why_tests_cant": "Must hold after every finite history of calls; a test replays a few histories.", "anchors": ["safe_autonomy_dynamics/cwh/point_model.py::CWHSpacecraft", "safe_autonomy_dynamics/base_models.py::BaseEntity.step", "safe_autonomy_dynamics/base_models.py::BaseODESolverDynamics._step"]}
{"id": "C86", "title": "A whole RK45 simulation in double precision", "statement": "A point-mass spacecraft stepped any number of times with RK45, the default method, in IEEE double precision, under a constant requested thrust, ends with positions and velocities that differ from the exact solution of the Clohessy-Wiltshire equations (for zero thrust: the textbook closed form) by at most exp(2 a T + N 2^-40) times the sum of a rounding part, 2^-46 ((N + 74 a T) Phi + 74 T mu + N 2^-500), and a method part, 2 a^5 (a Phi + mu) eta^5 T, where the solver takes N steps in all, each at most eta long and chosen in any way. For instance 100 m off the orbital plane with n = 2^-10 the error after a second in two steps is below 10^-11 m.", "quantifier": "every history of steps with one thrust, every state, mass, mean motion and choice of the solver's steps within stated ranges", "why_tests_cant": "Must hold after every finite history of calls; a test replays a few histories.", "anchors": ["safe_autonomy_dynamics/cwh/point_model.py::CWHSpacecraft", "safe_autonomy_dynamics/base_models.py::BaseEntity.step", "safe_autonomy_dynamics/base_models.py::BaseODESolverDynamics._step"]}
{"id": "C87", "title": "Where thrust can take a point mass", "statement": "Whatever is asked of an undamped integrator, after any history the velocity along each axis has changed by at most the elapsed time over the mass and the position differs from the coasting position by at most the elapsed time squared over twice the mass; a full-thrust RK45 step attains both bounds. Conversely any state can be reached from any other: for a long enough duration two calls of equal duration with thrusts within the limits lead there exactly, with either method and any choice of solver steps. For a spacecraft with the Clohessy-Wiltshire dynamics the along-track drift invariant changes by at most the elapsed time over the mass.", "quantifier": "every history of actions and durations, every pair of states, mass, method and choice of the solver's steps; in exact arithmetic", "why_tests_cant": "Must hold after every finite history of calls; a test replays a few histories.", "anchors": ["safe_autonomy_dynamics/integrators.py::IntegratorDynamics", "safe_autonomy_dynamics/cwh/point_model.py::CWHSpacecraft", "safe_autonomy_dynamics/base_models.py::BaseEntity.step"]}
{"id": "C88", "title": "Turns of the aircraft follow circles and helices", "statement": "A 2d Dubins aircraft asked for a constant heading rate and no acceleration keeps its speed, turns by exactly the saturated rate times the elapsed time up to whole turns, and its distance from the exact position on the circular arc of radius v over the rate grows at most linearly in time: with RK45, whatever steps the solver chooses, at v (rate x call duration)^5 / 170, with Euler at v (rate x call duration) / 2. After whole turns it is back where it was up to that error. A 3d aircraft flown hands off with a roll angle likewise follows a helix turning at 32.17 tan(roll)/v with an exact rate of climb.", "quantifier": "every history of calls with one request, every state, speed, limits, method and choice of the solver's steps; in exact arithmetic", "why_tests_cant": "Must hold after every finite history of calls; a test replays a few histories.", "anchors": ["safe_autonomy_dynamics/dubins.py::Dubins2dAircraft", "safe_autonomy_dynamics/dubins.py::Dubins3dAircraft", "safe_autonomy_dynamics/base_models.py::BaseODESolverDynamics._step"]}
{"id": "C89", "title": "RK45 steps keep the estimated error within the tolerances", "statement": "Whatever SciPy's error control does, an RK45 step is a chain of Dormand-Prince steps in the direction of integration that add up to the step size, so that everything said about RK45 for all choices of accepted steps holds with SciPy's choice. In each of the accepted steps the difference between the formulas of order 5 and 4 is within atol + rtol max(|y|, |y'|) in the root mean square over the components, with rtol = 1e-3 and atol = 1e-6. The new state is the end of the chain, limited and wrapped, and the reported derivative is the one at the end of the chain.", "quantifier": "every model with finite derivatives, every finite state, action, step size of either sign, number of samples and number of turns of the solver's loops; in exact arithmetic", "why_tests_cant": "The input space is infinite (all floats, all lengths, all action kinds); a test samples a handful of vectors.", "anchors": ["safe_autonomy_dynamics/base_models.py::BaseODESolverDynamics._step"]}
{"id": "C90", "title": "Sampled trajectories of point masses are exact", "statement": "With trajectory_samples = N the trajectory of an RK45 step of an undamped integrator holds the times T/N, 2T/N, ..., T and exactly the uniformly accelerated motion under the saturated thrust at these times, also between the steps the solver accepts.", "quantifier": "every mass, state, action, step size, number of samples, earlier history; in exact arithmetic", "why_tests_cant": "The input space is infinite (all floats, all lengths, all action kinds); a test samples a handful of vectors.", "anchors": ["safe_autonomy_dynamics/base_models.py::BaseODESolverDynamics._step", "safe_autonomy_dynamics/integrators.py::IntegratorDynamics"]}
{"id": "C91", "title": "RK45 steps return", "statement": "An RK45 step of any finite non-zero duration of a model whose derivative grows at most linearly returns after finitely many turns of the solver's loops, without an exception, in a finite state with a finite derivative, and the result does not depend on how many more turns are allowed. The same holds if the components of the state fall into levels and the derivative grows at most linearly level by level. So return all steps of point masses, translating spacecraft, planar Dubins aircraft, spacecraft rotating in the plane, and six-degrees-of-freedom spacecraft with two equal moments of inertia (as by default).", "quantifier": "every model of linear growth, or of linear growth level by level, all parameters, every finite state after any history, every action with a finite request, every step size; in exact arithmetic", "why_tests_cant": "The input space is infinite (all floats, all lengths, all action kinds); a test samples a handful of vectors.", "anchors": ["safe_autonomy_dynamics/base_models.py::BaseODESolverDynamics._step", "safe_autonomy_dynamics/integrators.py::IntegratorDynamics", "safe_autonomy_dynamics/cwh/point_model.py::CWHSpacecraft", "safe_autonomy_dynamics/cwh/rotational_model.py::CWHRotation2dSpacecraft", "safe_autonomy_dynamics/dubins.py::Dubins2dAircraft", "safe_autonomy_dynamics/cwh/sixdof_model.py::SixDOFSpacecraft"]}
{"id": "C92", "title": "RK45 steps that raise or never return", "statement": "With SciPy's solver a NaN in the action of an RK45 step is not reported. For a CWHSpacecraft and for the 1d/2d/3d integrators such a step never returns if any element of the state is at least 1e-9 in size, whatever the history, the duration (other than 0) and the number of samples. At rest in the origin it does return: SciPy gives up, the code ignores that, and the step reports success with the spacecraft unmoved and a derivative of NaNs (with trajectory samples it raises AttributeError instead). A step from a state with a NaN or an infinity raises ValueError, and a step of duration 0 with trajectory samples raises AttributeError; both leave the entity unchanged.", "quantifier": "every constructor argument, history, duration, action with a NaN, state of at least 1e-9 in some element (or at rest), number of turns the solver's loops may take; every arithmetic for the non-finite states", "why_tests_cant": "The input space is infinite (all floats, all lengths, all action kinds); a test samples a handful of vectors.", "anchors": ["safe_autonomy_dynamics/base_models.py::BaseODESolverDynamics._step", "safe_autonomy_dynamics/base_models.py::BaseEntity.step", "safe_autonomy_dynamics/cwh/point_model.py::CWHSpacecraft", "safe_autonomy_dynamics/integrators.py::IntegratorDynamics"]}
{"id": "C93", "title": "Single precision inside the rotating spacecraft", "statement": "CWHRotation2dSpacecraft and SixDOFSpacecraft compute part of their derivative in float32. In IEEE double precision, at any point of any history, the derivative of the position is the velocity rounded to single precision, exactly; an Euler step moves the position by the duration times that rounded velocity. The accelerations of the planar spacecraft are the Clohessy-Wiltshire ones, with the thrust rotated by the heading, up to 2^-20 times the sum of the absolute values of their terms. Two states of the planar spacecraft that agree to single precision have the same derivative bit for bit, so the rotating and the point-mass model of one spacecraft disagree: at 1 + 2^-25 m/s one moves 1 m in a second, the other 1 + 2^-25 m.", "quantifier": "every mathematical library, constructor argument, history, finite state and control within range, duration, mass and mean motion", "why_tests_cant": "The input space is infinite (all floats, all lengths, all action kinds); a test samples a handful of vectors.", "anchors": ["safe_autonomy_dynamics/cwh/rotational_model.py::CWHRotation2dDynamics", "safe_autonomy_dynamics/cwh/rotational_model.py::CWHRotation2dSpacecraft", "safe_autonomy_dynamics/cwh/sixdof_model.py::SixDOFDynamics", "safe_autonomy_dynamics/base_models.py::BaseODESolverDynamics.compute_state_dot"]}
{"id": "C94", "title": "Symmetries of Dubins flight", "statement": "Turning the world turns the flight: an aircraft started where a rotation by an angle about the vertical takes another, heading that angle further, and given the same actions, stays the rotated copy of the other: same speed, altitude, flight path angle and roll, positions rotated, headings that angle apart up to whole turns. With symmetric heading rate limits (2d) or roll and roll rate limits (3d, roll limit below half a turn), the mirror image of a flight in the x axis is the flight of the mirrored aircraft given the opposite heading rates or roll rates. For RK45 the two integrations use the same schedule of internal steps.", "quantifier": "every limits, pair of histories leading to related states, angle, sequence of steps with finite controls, durations and internal schedules (3d RK45: without commanded acceleration); in exact arithmetic", "why_tests_cant": "Must hold after every finite history of calls; a test replays a few histories.", "anchors": ["safe_autonomy_dynamics/dubins.py::Dubins2dAircraft", "safe_autonomy_dynamics/dubins.py::Dubins2dDynamics", "safe_autonomy_dynamics/dubins.py::Dubins3dAircraft", "safe_autonomy_dynamics/dubins.py::Dubins3dDynamics", "safe_autonomy_dynamics/base_models.py::BaseODESolverDynamics._step", "safe_autonomy_dynamics/base_models.py::BaseEntity.step"]}
{"id": "C95", "title": "Steps with JAX", "statement": "With RK45_JAX a step of positive duration whose model has a finite derivative ends at the value of a chain of Dormand-Prince steps from the current state, each with its estimated error within 1.4e-8 (1 + |y|) in the root mean square, and of the degree-four polynomial of the last one, then limited and wrapped. So rotation under a constant moment and the sun's motion are exact. Limits on rates do not act inside the step: a 2d spacecraft pushed at its angular velocity limit turns by more than limit times duration, where RK45 and Euler turn it by exactly that. A step whose duration is not positive, and a step that starts where an element of the derivative is NaN, never hang, and if they return every element of the state is NaN.", "quantifier": "every entity, finite state, requested control, duration, history, and (NaN claims) every floating point format", "why_tests_cant": "The input space is infinite (all floats, all lengths, all action kinds); a test samples a handful of vectors.", "anchors": ["safe_autonomy_dynamics/base_models.py::BaseODESolverDynamics._step", "safe_autonomy_dynamics/base_models.py::BaseODESolverDynamics.compute_state_dot_jax", "safe_autonomy_dynamics/cwh/rotational_model.py::CWHRotation2dSpacecraft", "safe_autonomy_dynamics/cwh/sun_model.py::SunEntity"]}
{"id": "C96", "title": "Steps with JAX return", "statement": "If use_jax is set, no trajectory samples are asked for, and the model's derivative under the applied control is finite in every finite state and grows at most linearly, a step with RK45_JAX of any positive duration ends after finitely many turns of the integrator's loop, without an exception, in a finite state. This covers every step of the 2d rotating spacecraft and of the sun.", "quantifier": "every parameters, history, finite state, requested control and positive duration, in exact arithmetic", "why_tests_cant": "The input space is infinite (all floats, all lengths, all action kinds); a test samples a handful of vectors.", "anchors": ["safe_autonomy_dynamics/base_models.py::BaseODESolverDynamics._step", "safe_autonomy_dynamics/cwh/rotational_model.py::CWHRotation2dSpacecraft", "safe_autonomy_dynamics/cwh/sun_model.py::SunEntity"]}
{"id": "C97", "title": "A spinning 3d spacecraft under RK45", "statement": "A 6DOF spacecraft that turns at constant rates within its limits, about a principal axis or with equal moments of inertia, and is asked for no moments (and for any thrusts) keeps its rates exactly, whatever steps the solver takes. After time t in calls of at most h seconds its quaternion differs from the exact one, turned by |w| t about w, by at most (|w| t / 2)(|w| h / 2)^5 / 2100 of its length. It never gets longer, and its squared length falls by at most the fraction (|w| t / 2)(|w| h / 2)^5 / 1800, as long as |w| h is at most 1.8.", "quantifier": "every parameters, history, finite state, thrust requests, any number of calls of any durations up to h, any solver steps, in exact arithmetic", "why_tests_cant": "Must hold after every finite history of calls; a test replays a few histories.", "anchors": ["safe_autonomy_dynamics/cwh/sixdof_model.py::SixDOFSpacecraft", "safe_autonomy_dynamics/cwh/sixdof_model.py::SixDOFDynamics", "safe_autonomy_dynamics/base_models.py::BaseODESolverDynamics._step"]}
{"id": "C98", "title": "Simulations converge to the solution of the differential equation", "statement": "Take a model of the user's without limits on the state, whose derivative under the controls applied is Lipschitz in the state with constant L, simulated with RK45 (whatever steps the solver takes) or Euler in calls of at most h seconds, h L at most 1/25. There is exactly one exact motion: the solution of the differential equation under the control each successful call applies, for its duration. After any history the state is within 18 L B h t exp(2 L t) of the exact motion, t being the time simulated and B the largest speed of the exact motion. So for every period and tolerance, calls that are short enough stay within the tolerance.", "quantifier": "every Lipschitz model, dimension, history of calls and actions (failed calls included), initial state, solver steps, in exact arithmetic", "why_tests_cant": "Must hold after every finite history of calls; a test replays a few histories.", "anchors": ["safe_autonomy_dynamics/base_models.py::BaseODESolverDynamics._step", "safe_autonomy_dynamics/base_models.py::BaseODESolverDynamics.compute_state_dot", "safe_autonomy_dynamics/base_models.py::BaseEntity.step"]}
{"id": "C99", "title": "Within their limits all the models converge to their equations of motion", "statement": "Take an exact motion under a constant control that stays strictly inside the limits of the model: of the Dubins aircraft (level and three-dimensional), the rotating planar spacecraft, the six-degree-of-freedom spacecraft, or any model of the user's whose derivative is locally Lipschitz in an open region in which no limit is active. For every period and tolerance there is a call duration such that every simulation in calls no longer than it, started close enough to the motion, with RK45 (whatever steps the solver takes) or Euler, ends within the tolerance of the motion, angles up to whole turns where the model wraps them. The same holds along any finite sequence of such motions joined end to end, each with its own control.", "quantifier": "every exact motion inside the limits, every tolerance, every history of short calls (failed calls included), solver steps, initial state nearby, in exact arithmetic", "why_tests_cant": "Must hold after every finite history of calls; a test replays a few histories.", "anchors": ["safe_autonomy_dynamics/base_models.py::BaseODESolverDynamics._step", "safe_autonomy_dynamics/base_models.py::BaseODESolverDynamics.compute_state_dot", "safe_autonomy_dynamics/base_models.py::BaseEntity.step", "safe_autonomy_dynamics/dubins.py::Dubins2dAircraft", "safe_autonomy_dynamics/dubins.py::Dubins3dAircraft", "safe_autonomy_dynamics/cwh/rotational_model.py::CWHRotation2dSpacecraft", "safe_autonomy_dynamics/cwh/sixdof_model.py::SixDOFSpacecraft"]}
{"id": "C100", "title": "Whole F-16 simulations", "statement": "The aircraft with its low-level controller, integrated with the fixed-step Euler integrator under references from any guidance function of time and state: the engine power stays in [0,100] for ever when ticks take at most 0.2 s and the throttle reference is not NaN, whatever happens to the rest of the state and whether or not ticks raise; starting at a place and heading moved on the map gives the same simulation moved on the map, tick by tick, when the guidance does not look at heading and horizontal position; and if the airspeed at every tick is at most V the aircraft is never farther from its start than V times the simulated time.", "quantifier": "every guidance function, aerodynamic model, initial state, step, number of ticks, in exact arithmetic; for the last two, simulations whose ticks start from states without division by zero", "why_tests_cant": "Must hold after every finite history of calls; a test replays a few histories.", "anchors": ["safe_autonomy_dynamics/external/aerobench/controlled_f16.py::controlled_f16", "safe_autonomy_dynamics/external/aerobench/util.py::Euler.step", "safe_autonomy_dynamics/external/aerobench/lowlevel/subf16_model.py::subf16_model", "safe_autonomy_dynamics/external/aerobench/lowlevel/low_level_controller.py::LowLevelController.get_u_deg"]}
{"id": "C101", "title": "Damped integrators", "statement": "A point-mass integrator with damping c > 0 and mass m, stepped with calls short enough for the damping (c times the length at most 1 with Euler, 2 with RK45): under constant thrust u its velocity approaches the terminal velocity u/(m c) on every axis without overshoot, the difference shrinking at least by 1/(1 + c time), and the position follows; whatever the thrusts, no velocity exceeds the larger of its first value and 1/(m c); with no thrust the craft ends within speed/c of where it was, never moving backwards. With Euler and calls longer than 2/c a coasting craft gets faster without bound.", "quantifier": "every history of calls with finite requests, mass, damping, initial state and solver step choice, in exact arithmetic", "why_tests_cant": "Must hold after every finite history of calls; a test replays a few histories.", "anchors": ["safe_autonomy_dynamics/integrators.py::IntegratorDynamics", "safe_autonomy_dynamics/base_models.py::BaseODESolverDynamics._step", "safe_autonomy_dynamics/base_models.py::BaseEntity.step"]}
{"id": "C102", "title": "Several entities in one program do not interfere", "statement": "In a program that operates on several entities in any order, also on entities that were given the same dynamics object, and registers partners and leads in between, every entity has the state and state derivative it would have if only the operations on it had been carried out, and its next step succeeds, fails and warns as it would then. Entities built by the library's constructors do not share anything: their stored trajectories are their own as well. Entities that share a dynamics object share its stored trajectory. The partner or lead of an entity is the one registered last and influences nothing.", "quantifier": "every number of entities, every interleaving of steps (failing ones included), state assignments and registrations, every assignment of dynamics objects to entities, every arithmetic", "why_tests_cant": "Must hold for every accepted-step schedule the adaptive solver may choose; a test observes one schedule per run.", "anchors": ["safe_autonomy_dynamics/base_models.py::BaseEntity.step", "safe_autonomy_dynamics/base_models.py::BaseEntity.__init__", "safe_autonomy_dynamics/dubins.py::BaseDubinsAircraft.register_partner", "safe_autonomy_dynamics/cwh/sixdof_model.py::SixDOFSpacecraft.register_lead"]}
{"id": "C103", "title": "The Sun in double precision", "statement": "In double precision a simulation of the Sun ends within a relative error of two roundings per Euler step, or of 2^-46 per internal RK45 step, of the initial angle plus n times the elapsed time, whatever array actions (NaN included) are given. But the angle is never wrapped, and it does not advance for ever: at 2^53 rad Euler steps of up to a radian have no effect.", "quantifier": "every initial angle, every mean motion, every number and duration of steps (of either sign under Euler), every array action, every RK45 step schedule, every libm", "why_tests_cant": "Must hold after every finite history of calls; a test replays a few histories.", "anchors": ["safe_autonomy_dynamics/cwh/sun_model.py::SunDynamics._compute_state_dot", "safe_autonomy_dynamics/cwh/sun_model.py::SunEntity", "safe_autonomy_dynamics/base_models.py::BaseODESolverDynamics._step"]}
{"id": "C104", "title": "How far a Dubins aircraft flies", "statement": "With Euler's method no sequence of actions takes a Dubins2dAircraft or Dubins3dAircraft farther, in a straight line, than its greatest speed times the total duration of the steps. With RK45 a Dubins2dAircraft flying straight under a constant acceleration whose speed stays strictly between v_min and v_max gains exactly a t of speed and flies exactly v t + a t^2/2 along its heading, whatever steps the solver takes and however the time is split into calls. But the speed bound fails with RK45: where the speed would reach v_max early in a step of the solver (v + 3/40 a T >= v_max), the aircraft flies T (v + 35/384 a T), which is more than v_max T. At v_max an aircraft asked to accelerate flies exactly v_max t along its heading with either method. In general, with either method and whatever the actions, a Dubins2dAircraft flies at most 33/20 (v_max + 25 A eta) t in a straight line, where A bounds the acceleration and eta the durations of the calls.", "quantifier": "all speed, rate and acceleration limits, histories of operations before, starting states with a speed within the limits, histories of steps of non-negative durations under any finite actions (Euler), all solver schedules (straight flight), and all step durations that reach the limit early (overspeed); in exact arithmetic", "why_tests_cant": "Must hold after every finite history of calls; a test replays a few histories.", "anchors": ["safe_autonomy_dynamics/dubins.py::Dubins2dAircraft", "safe_autonomy_dynamics/dubins.py::Dubins3dAircraft", "safe_autonomy_dynamics/dubins.py::Dubins2dDynamics", "safe_autonomy_dynamics/dubins.py::Dubins3dDynamics", "safe_autonomy_dynamics/base_models.py::BaseODESolverDynamics.compute_state_dot"]}
{"id": "C105", "title": "The attitude of the planar spacecraft", "statement": "While a constant moment keeps the angular velocity of a CWHRotation2dSpacecraft strictly between its limits, RK45 steps give exactly the motion of constant angular acceleration a = (saturated moment)/inertia: wz gains a t and theta changes by wz t + a t^2/2 up to whole turns, whatever the thrusters do meanwhile, whatever steps the solver takes and however the time is split into calls. Without a moment, or at a limit of the angular velocity with a moment that pushes beyond it, wz stays as it is and theta changes by exactly wz t up to whole turns, with RK45 and with Euler.", "quantifier": "all masses, inertias and limits, histories of operations before, finite states, histories of steps with any thrusts and the same moment (or any outward moments), and all solver schedules; in exact arithmetic", "why_tests_cant": "Must hold after every finite history of calls; a test replays a few histories.", "anchors": ["safe_autonomy_dynamics/cwh/rotational_model.py::CWHRotation2dSpacecraft", "safe_autonomy_dynamics/cwh/rotational_model.py::CWHRotation2dDynamics", "safe_autonomy_dynamics/base_models.py::BaseODESolverDynamics.compute_state_dot"]}
{"id": "C106", "title": "Flights of the 2d aircraft in double precision", "statement": "A Dubins2dAircraft stepped any number of times with Euler in IEEE double precision, with any actions, stays close to the same flight in exact arithmetic: given sine and cosine with error at most d, a bound S of the speed and a bound G of the coordinates, every step succeeds, nothing overflows, the heading is off by at most 2^-53 (90 N + 20 total turn) modulo whole turns in spite of the float value of pi and the rounding of the angle wrap, the speed by at most 2^-53 (4 S N + 10 total change of speed), in spite of the zeroing of the acceleration at the speed limits, and the coordinates by at most T (speed error + S (heading error + d + 14 2^-53)) + 7 2^-53 G N. In exact arithmetic the aircraft computes exactly this reference flight.", "quantifier": "all numbers of steps, durations, actions and applied controls, speed limits, finite states, histories of operations before, and all sine and cosine implementations with error d", "why_tests_cant": "The input space is infinite (all floats, all lengths, all action kinds); a test samples a handful of vectors.", "anchors": ["safe_autonomy_dynamics/dubins.py::Dubins2dAircraft", "safe_autonomy_dynamics/dubins.py::Dubins2dDynamics", "safe_autonomy_dynamics/base_models.py::BaseDynamics._wrap_angles", "safe_autonomy_dynamics/base_models.py::BaseODESolverDynamics.compute_state_dot", "safe_autonomy_dynamics/base_models.py::BaseODESolverDynamics._step"]}
{"id": "C107", "title": "The first step is computed in single precision", "statement": "A newly constructed entity holds its state as a float32 array, so under Euler's method the sines, cosines and products of state elements in its first step are computed in single precision. This affects nothing but the accuracy: the first step warns exactly when the step would, leaves the configuration alone, leaves state and derivative alone if it raises, and keeps the state limits; in exact arithmetic it is the step. A flight of a new 2d aircraft is off by at most the double-precision bound of C106 plus one leg's distance times the single-precision error (the error of the float32 sine and cosine plus 3 * 2^-24), and its heading and speed are as accurate as if the first step were in double precision. The loss is real: flying straight for a second at 400 feet per second with heading 1/1024, a new aircraft ends more than 7 millionths of a foot off whatever its float32 cosine returns, where from a float64 state it would be off by less than a billionth.", "quantifier": "every entity, action, step size and derivative (protocol); every new 2d aircraft with finite speed limits, every flight and every libm of the stated accuracy", "why_tests_cant": "The input space is infinite (all floats, all lengths, all action kinds); a test samples a handful of vectors.", "anchors": ["safe_autonomy_dynamics/dubins.py::Dubins2dAircraft._build_state", "safe_autonomy_dynamics/dubins.py::Dubins2dDynamics.state_transition_system", "safe_autonomy_dynamics/dubins.py::Dubins3dDynamics.state_transition_system", "safe_autonomy_dynamics/cwh/rotational_model.py::CWHRotation2dDynamics.state_transition_input", "safe_autonomy_dynamics/cwh/sixdof_model.py::SixDOFDynamics.state_transition_system", "safe_autonomy_dynamics/base_models.py::BaseODESolverDynamics._step"]}
{"id": "C108", "title": "Which attributes can be assigned, and what an assignment does", "statement": "Every number-valued property of every entity class shows the documented entry of the state vector, or 0; on the Sun x, y and z raise NotImplementedError. Of the public properties only `state` and, on Dubins aircraft, the elements of the state vector (x, y, heading, v; in 3d also z, gamma, roll) can be assigned: assigning any other raises AttributeError and changes nothing. An assignment changes its entry of the state and nothing else; no limit is applied and no angle wrapped, so after aircraft.v = V the next Euler step of a 2d aircraft covers the distance V*T even if V is beyond v_max, and only then brings the speed back between the limits. The value is read back exactly once a step has been completed (and no array been assigned to state since); before the first completed step it is rounded to float32. No entity is hashable: hash raises TypeError.", "quantifier": "every entity class, property name, value, entity, and history of steps and assignments", "why_tests_cant": "Must hold after every finite history of calls; a test replays a few histories.", "anchors": ["safe_autonomy_dynamics/base_models.py::BaseEntity.state", "safe_autonomy_dynamics/base_models.py::BaseRotationEntity", "safe_autonomy_dynamics/dubins.py::Dubins2dAircraft", "safe_autonomy_dynamics/dubins.py::Dubins3dAircraft", "safe_autonomy_dynamics/dubins.py::BaseDubinsAircraft", "safe_autonomy_dynamics/cwh/point_model.py::CWHSpacecraft", "safe_autonomy_dynamics/cwh/rotational_model.py::CWHRotation2dSpacecraft", "safe_autonomy_dynamics/cwh/sixdof_model.py::SixDOFSpacecraft", "safe_autonomy_dynamics/cwh/sun_model.py::SunEntity", "safe_autonomy_dynamics/integrators.py::Integrator1d"]}
{"id": "C109", "title": "Linear models under RK45 in double precision", "statement": "A linear model x' = A x + B u without state or rate limits, built in double precision and stepped with RK45 under any history of steps applying the same control, ends within an explicit bound of the exact solution of its differential equation: the bound is a rounding term proportional to the number of solver steps times 2^-52 plus, for the method, a term in the fifth power of the largest solver step, both amplified by exp of the time flown and relative to whatever units w the user measures the states in. For the point masses (1d, 2d, 3d) without damping the method error vanishes: position and velocity follow x + v t + F t^2/(2m) and v + F t/m up to rounding alone, F being the requested thrust clipped to [-1, 1]; with damping they follow the exponential approach to F/(m c).", "quantifier": "every size, A, B, control, weights, history of step sizes, solver steps and, for the integrators, mass, damping, dimension and start", "why_tests_cant": "The input space is infinite (all floats, all lengths, all action kinds); a test samples a handful of vectors.", "anchors": ["safe_autonomy_dynamics/base_models.py::BaseLinearODESolverDynamics", "safe_autonomy_dynamics/base_models.py::BaseODESolverDynamics._step", "safe_autonomy_dynamics/integrators.py::IntegratorDynamics", "safe_autonomy_dynamics/integrators.py::generate_dynamics_matrices"]}
{"id": "C110", "title": "How the limit warning is seen", "statement": "The limit warning goes through the filters of Python's warnings module. A program sets the filters, steps its entities, sets them again, and so on: while the action is default or module, each message is shown once, at the first step that exceeds the limits it names, however often limits are exceeded and by however many entities with the same limits; after a change of the filters it is shown again. Under once it is shown once in the whole program, under always every time, under ignore and error never. With the warning turned into an error, a step whose control exceeds the limits raises UserWarning and leaves the entity and its dynamics as they were; every other step, and every step under the other actions, does what it does without filters.", "quantifier": "every program of steps, assignments and filter changes on any number of entities, every message text, control and limits", "why_tests_cant": "Must hold after every finite history of calls; a test replays a few histories.", "anchors": ["safe_autonomy_dynamics/base_models.py::BaseEntity.step"]}
{"id": "C111", "title": "Vehicles built without parameters", "statement": "A vehicle of which only the name is given has these properties, whatever it is asked to do. Dubins2dAircraft and Dubins3dAircraft: speed between 200 and 400 ft/s, heading between -pi and pi, controls limited to 0.174533 rad/s (heading rate; flight path angle rate), 0.087266 rad/s (roll rate) and 96.5 ft/s^2; flight path angle within 0.349066 rad and roll within 1.047198 rad. CWHRotation2dSpacecraft and SixDOFSpacecraft: thrust limited to 1, moment to 0.017453 * 0.0573, angular velocity within 0.034907 rad/s, angular acceleration of the planar one within 0.017453. The wheels do not tighten these limits. These hold in double precision, after every history that ends in a successful step. The equations of motion are those of Clohessy and Wiltshire for 12 kg and 0.001027 rad/s, and those of a rigid body with principal moments 0.0573 (within the limits). A concrete integrator has unit mass, no damping and thrusts limited to 1. Left alone, an aircraft flies along x at 200 ft/s, a spacecraft or integrator stays at the origin (the six degree one with quaternion 0), and a sun turns by 0.001027 radians per second.", "quantifier": "every history, action and step time, every other keyword given, every implementation of the elementary functions (limits); every state, control and sequence of step times (equations and idle motion)", "why_tests_cant": "Must hold after every finite history of calls; a test replays a few histories.", "anchors": ["safe_autonomy_dynamics/dubins.py::Dubins2dAircraft.__init__", "safe_autonomy_dynamics/dubins.py::Dubins3dAircraft.__init__", "safe_autonomy_dynamics/cwh/point_model.py::CWHSpacecraft.__init__", "safe_autonomy_dynamics/cwh/rotational_model.py::CWHRotation2dSpacecraft.__init__", "safe_autonomy_dynamics/cwh/sixdof_model.py::SixDOFSpacecraft.__init__", "safe_autonomy_dynamics/cwh/sun_model.py::SunEntity.__init__"]}
{"id": "C112", "title": "Arrays of integers as actions and states", "statement": "An int64 array is an action exactly like the float64 array of the same numbers, at any point of any history. An int64 array can be assigned to state: the next step is the one from these numbers as floats and leaves a float64 state; until a step completes or another array is assigned the state holds integers only, a number assigned to a property of an aircraft is stored without its fraction (heading = 1.5 gives 1), NaN raises ValueError and an infinity or a number too large OverflowError, without effect.", "quantifier": "every class with assignable properties, number, array, and history of steps and assignments", "why_tests_cant": "Must hold after every finite history of calls; a test replays a few histories.", "anchors": ["safe_autonomy_dynamics/base_models.py::BaseEntity.step", "safe_autonomy_dynamics/base_models.py::BaseEntity.state", "safe_autonomy_dynamics/dubins.py::Dubins2dAircraft", "safe_autonomy_dynamics/dubins.py::Dubins3dAircraft"]}
{"id": "C113", "title": "Flights of the 3d aircraft in double precision", "statement": "A flight of the 3d aircraft under Euler's method in double precision, of any number of steps of any durations with any actions, stays within an explicit bound of the same flight computed in exact arithmetic: position, heading (modulo whole turns), flight path angle, roll and speed each have their bound, given by the number of steps, the total time, the total change of angles and speed asked for, the limits, and the accuracy of sine, cosine and tangent. No step raises, no number overflows, and flight path angle and roll stay within their limits up to 22 * 2^-53 and the speed exactly. In exact arithmetic the aircraft computes that reference flight.", "quantifier": "every accuracy of the maths library, limits with the roll less than a quarter turn, start within the limits after any history, and finite list of steps", "why_tests_cant": "Must hold after every finite history of calls; a test replays a few histories.", "anchors": ["safe_autonomy_dynamics/dubins.py::Dubins3dAircraft", "safe_autonomy_dynamics/dubins.py::Dubins3dDynamics", "safe_autonomy_dynamics/base_models.py::BaseODESolverDynamics"]}
{"id": "C114", "title": "Deriving classes from the base classes", "statement": "The constructor of a class derived over any number of levels from a base class of the library runs if and only if these levels together define what the base leaves abstract, and raises TypeError otherwise: _build_state, x, y, z, position, orientation, velocity for BaseEntity and BaseIntegrator; in addition q1 to q4, quaternion, wx, wy, wz, angular_velocity for BaseRotationEntity; _build_state, x, y, z, position, v, heading, gamma, roll, acceleration for BaseDubinsAircraft; _step for BaseDynamics; _compute_state_dot for BaseODESolverDynamics; state_transition_system and state_transition_input for BaseControlAffineODESolverDynamics; nothing for BaseLinearODESolverDynamics. Any class derived from a shipped vehicle can be constructed.", "quantifier": "every chain of user-defined classes with any members, and every constructor argument", "why_tests_cant": "The input space is infinite (all floats, all lengths, all action kinds); a test samples a handful of vectors.", "anchors": ["safe_autonomy_dynamics/base_models.py::BaseEntity", "safe_autonomy_dynamics/base_models.py::BaseRotationEntity", "safe_autonomy_dynamics/base_models.py::BaseDynamics", "safe_autonomy_dynamics/base_models.py::BaseODESolverDynamics", "safe_autonomy_dynamics/base_models.py::BaseControlAffineODESolverDynamics", "safe_autonomy_dynamics/base_models.py::BaseLinearODESolverDynamics", "safe_autonomy_dynamics/dubins.py::BaseDubinsAircraft", "safe_autonomy_dynamics/integrators.py::BaseIntegrator"]}
{"id": "C115", "title": "F-16 states as arrays of integers or in single precision", "statement": "Given an int64 array, subf16_model returns derivatives without their fractions (each but that of beta is the true one truncated, zero if less than one); controlled_f16 raises TypeError for every such array; an Euler integrator started from one raises at every step, never changes its state and never finishes while its time goes on. Given a float32 array, subf16_model returns the derivatives rounded to single precision (those of beta and Q are in addition computed from rounded numbers), and in exact arithmetic all three behave as for float64.", "quantifier": "every state, control, model, reference, derivative function and number of steps", "why_tests_cant": "Must hold after every finite history of calls; a test replays a few histories.", "anchors": ["safe_autonomy_dynamics/external/aerobench/lowlevel/subf16_model.py::subf16_model", "safe_autonomy_dynamics/external/aerobench/controlled_f16.py::controlled_f16", "safe_autonomy_dynamics/external/aerobench/lowlevel/low_level_controller.py::LowLevelController.get_u_deg", "safe_autonomy_dynamics/external/aerobench/util.py::Euler"]}
{"id": "C116", "title": "Steps of negative duration", "statement": "A step of negative duration is accepted and runs the model backwards. For an undamped integrator with RK45, repeating any history of calls in the opposite order with negated durations restores the state exactly, whatever steps the solver takes either way. The Sun returns exactly whenever the durations add up to zero. With Euler, a call and its reversal restore the velocity of an undamped integrator but leave the position off by minus the applied acceleration times the duration squared, and a coasting Clohessy-Wiltshire spacecraft off by minus the duration squared times the second derivative of its state. A 2d aircraft at its maximal speed stays at that speed in every backward (or forward) call whose applied acceleration is not negative, even though that acceleration may have brought it there.", "quantifier": "every duration of either sign, history, action, parameter, state and choice of solver steps; in exact arithmetic", "why_tests_cant": "Must hold after every finite history of calls; a test replays a few histories.", "anchors": ["safe_autonomy_dynamics/base_models.py::BaseODESolverDynamics._step", "safe_autonomy_dynamics/base_models.py::BaseODESolverDynamics._clip_state_dot_by_state_limits", "safe_autonomy_dynamics/integrators.py::BaseIntegrator", "safe_autonomy_dynamics/cwh/sun_model.py::SunEntity", "safe_autonomy_dynamics/cwh/point_model.py::CWHSpacecraft", "safe_autonomy_dynamics/dubins.py::Dubins2dAircraft"]}
{"id": "C117", "title": "Relative orbits and station keeping", "statement": "A point-mass spacecraft that coasts for k orbital periods 2 pi / n, in short enough calls and solver steps, ends within any tolerance of its first state moved along the track by -6 pi k (2 x + y_dot / n). So the relative orbit closes up to any tolerance if y_dot = -2 n x, and otherwise every fine enough simulation ends a fixed distance or more away from where it started. A spacecraft at rest at any place stays there exactly, for any history of calls of any durations with either method, while it asks for the thrust (-3 m n^2 x, 0, m n^2 z) and this is within the limits.", "quantifier": "every mass, mean motion, initial state, number of orbits, tolerance, division of the time into calls and choice of solver steps; in exact arithmetic", "why_tests_cant": "Must hold after every finite history of calls; a test replays a few histories.", "anchors": ["safe_autonomy_dynamics/cwh/point_model.py::CWHSpacecraft", "safe_autonomy_dynamics/cwh/point_model.py::generate_cwh_matrices", "safe_autonomy_dynamics/base_models.py::BaseODESolverDynamics._step"]}
{"id": "C118", "title": "A user's own model in double precision", "statement": "A model supplied by the user is integrated in double precision to within a bound known in advance. If its derivative is computed to within \u03b4 of a function with Lipschitz constant L near the exact motion, derivatives there are at most D and states at most X, each element measured in a unit of its own, and limits and angle wrapping do not change states near the motion, then after any history of calls lasting T in total, with any action in each call, every element of the state is, in its unit, within exp(L T) (\u03b50 + (2 \u03b4 + 46 L D \u03b7) T + 2 N 2^-48 (X + 26 \u03b7 D + 2^-500)) of the exact motion, where \u03b50 is the initial error, \u03b7 the largest step taken and N the number of steps. This holds for Euler and for RK45 with any choice of steps by the solver.", "quantifier": "every model, derivative function, history of calls, action, state and choice of solver steps meeting the stated bounds", "why_tests_cant": "Must hold after every finite history of calls; a test replays a few histories.", "anchors": ["safe_autonomy_dynamics/base_models.py::BaseODESolverDynamics._step", "safe_autonomy_dynamics/base_models.py::BaseODESolverDynamics.compute_state_dot", "safe_autonomy_dynamics/base_models.py::BaseDynamics.step", "safe_autonomy_dynamics/base_models.py::BaseEntity.step"]}
{"id": "C119", "title": "The planar rotating spacecraft in double precision", "statement": "A planar spacecraft that turns and thrusts is simulated in double precision to within a bound known in advance, although part of its derivative is computed in single precision. After any earlier operations, take any history of calls lasting T in total, with any actions, whose exact motion keeps away from the limit of the turn rate. The state after it is within exp(L T) (\u03b50 + (2 \u0394 + 46 L D \u03b7) T + N (2^-47 (X + 26 \u03b7 D + 2^-500) + 2^-50 (X + 20 / w))) of the exact motion, each element in a unit of its own and the heading, with the unit w, up to whole turns. Here L is a Lipschitz constant of the exact equations of motion, X bounds states, M accelerations due to thrust and moment, D = 2 (L X + M), and the error of the derivative is \u0394 = 2^-19 (L X + M) + \u03b4 M, where \u03b4 is the error of sine and cosine. \u03b50 is the initial error, \u03b7 the largest step and N the number of steps. This holds for Euler and for RK45 with any choice of steps by the solver.", "quantifier": "every parameter of the spacecraft, earlier operation, history of calls, action, state and choice of solver steps within the stated bounds", "why_tests_cant": "Must hold after every finite history of calls; a test replays a few histories.", "anchors": ["safe_autonomy_dynamics/cwh/rotational_model.py::CWHRotation2dDynamics.state_transition_system", "safe_autonomy_dynamics/cwh/rotational_model.py::CWHRotation2dDynamics.state_transition_input", "safe_autonomy_dynamics/cwh/rotational_model.py::CWHRotation2dSpacecraft", "safe_autonomy_dynamics/base_models.py::BaseDynamics.step", "safe_autonomy_dynamics/base_models.py::BaseODESolverDynamics._step"]}
{"id": "C120", "title": "The spacecraft with six degrees of freedom in double precision", "statement": "A spacecraft with six degrees of freedom is simulated in double precision to within a bound known in advance, although part of its derivative is computed in single precision and its thrust may be turned by a quaternion that is not of length 1. After any earlier operations, take any history of calls lasting T in total, with any actions, whose exact motion keeps away from the limits of the body rates. Position, attitude, velocity and body rates after it are within exp(L T) (\u03b50 + (2 \u0394 + 46 L D \u03b7) T + 2^-47 N (X + 26 \u03b7 D + 2^-500)) of the exact motion, each element in a unit of its own. Here L is a Lipschitz constant of the exact equations of motion where states are at most X, M bounds accelerations due to thrust and moments, D = 2 (L X + M), and the error of the derivative is \u0394 = 2^-19 (L X + M). \u03b50 is the initial error, \u03b7 the largest step and N the number of steps. This holds for Euler and for RK45 with any choice of steps by the solver.", "quantifier": "every parameter of the spacecraft, thrust given in either frame, earlier operation, history of calls, action, state and choice of solver steps within the stated bounds", "why_tests_cant": "Must hold after every finite history of calls; a test replays a few histories.", "anchors": ["safe_autonomy_dynamics/cwh/sixdof_model.py::SixDOFDynamics.state_transition_system", "safe_autonomy_dynamics/cwh/sixdof_model.py::SixDOFDynamics.state_transition_input", "safe_autonomy_dynamics/cwh/sixdof_model.py::SixDOFSpacecraft", "safe_autonomy_dynamics/cwh/sixdof_model.py::SixDOFDynamics.apply_quat", "safe_autonomy_dynamics/base_models.py::BaseDynamics.step", "safe_autonomy_dynamics/base_models.py::BaseODESolverDynamics._step"]}
{"id": "C121", "title": "The aircraft in double precision with RK45 and Euler", "statement": "The Dubins aircraft, planar and in space, are simulated in double precision to within a bound known in advance, although the heading is wrapped in every call. After any earlier operations, take any history of calls lasting T in total, with any actions, whose exact flight turns, climbs, rolls and accelerates at bounded rates and keeps away from the limits of speed, flight path angle and roll (or stays at constant values within them). The state after it is within exp(L T) (\u03b50 + (2 \u0394 + 46 L D \u03b7) T + N (2^-47 (X + 26 \u03b7 D + 2^-500) + \u03c9)) of the exact flight, each element in a unit w of its own and the heading up to whole turns. Here L is a Lipschitz constant of the exact equations of motion where states are at most X, M bounds the rates, D = 2 (L X + M), \u03c9 is the rounding of the wrapping, and the error of the derivative is \u0394 = (2^-50 + \u03b4) (L X + M) in the plane and (2^-49 + 3 \u03b4) (L X + M) in space, where \u03b4 is the error of the sine, cosine and tangent. \u03b50 is the initial error, \u03b7 the largest step and N the number of steps. This holds for Euler and for RK45 with any choice of steps by the solver.", "quantifier": "every parameter of the aircraft, earlier operation, history of calls, action, state, accuracy of the mathematical library and choice of solver steps within the stated bounds", "why_tests_cant": "Must hold after every finite history of calls; a test replays a few histories.", "anchors": ["safe_autonomy_dynamics/dubins.py::Dubins2dDynamics.state_transition_system", "safe_autonomy_dynamics/dubins.py::Dubins2dAircraft", "safe_autonomy_dynamics/dubins.py::Dubins3dDynamics.state_transition_system", "safe_autonomy_dynamics/dubins.py::Dubins3dAircraft", "safe_autonomy_dynamics/base_models.py::BaseODESolverDynamics._step"]}
{"id": "C122", "title": "Pressing against a limit", "statement": "In exact arithmetic, a state element with a lower and an upper limit whose rate of change is constant in each call follows the number that moves at these rates and stops at the limits. With Euler's method it is equal to that number after every history of calls of any actions and durations; with RK45, whatever steps the solver takes, it differs from it by at most 4/3 of the greatest distance it moves in one call, however many calls there are. Calls that raise change nothing. This holds for the speed of the planar aircraft, for flight path angle, roll and speed of the aircraft in space, for the angular velocity of the planar spacecraft, and for such elements of users' models, even if other elements are infinite or NaN. With RK45 equality fails: an aircraft whose speed reaches its maximum in the last ninth of a single solver step ends it below the maximum.", "quantifier": "every parameter of the model, earlier operation, state within the limits, history of calls with actions and durations, and choice of solver steps", "why_tests_cant": "Must hold after every finite history of calls; a test replays a few histories.", "anchors": ["safe_autonomy_dynamics/base_models.py::BaseODESolverDynamics.compute_state_dot", "safe_autonomy_dynamics/base_models.py::BaseODESolverDynamics._clip_state_dot_by_state_limits", "safe_autonomy_dynamics/base_models.py::BaseDynamics.step", "safe_autonomy_dynamics/dubins.py::Dubins2dAircraft", "safe_autonomy_dynamics/dubins.py::Dubins3dAircraft", "safe_autonomy_dynamics/cwh/rotational_model.py::CWHRotation2dSpacecraft"]}
{"id": "C123", "title": "Guiding centre and size of a relative orbit", "statement": "In exact arithmetic, while a spacecraft (point mass, planar with rotation, or six degrees of freedom) asks for no thrust, and for any moments, the centre (4 x + 2 y_dot / n, y - 2 x_dot / n) of its relative orbit keeps its radial position exactly and moves along the track by exactly -3/2 n times this per second, for any history of calls of any durations, either method and any solver steps. The ellipse about the centre and the swing across the plane are not kept: with Euler each call of T seconds multiplies their squared sizes by exactly 1 + (n T)^2, so in calls of at least h seconds they grow at least by the factor 1 + n^2 h t and exceed every bound. With RK45 in calls of at most h <= 0.9 / n seconds they never grow, shrink by at most the fraction n t (n h)^5 / 1800, and every state element stays within n t (n h)^5 / 2100 of the size of the ellipse or swing (twice this along the track; times n for the velocities) from the exact Clohessy-Wiltshire solution, an error that grows only linearly in time.", "quantifier": "every mass and n, earlier operation, state, history of calls without thrust and choice of solver steps", "why_tests_cant": "Must hold after every finite history of calls; a test replays a few histories.", "anchors": ["safe_autonomy_dynamics/cwh/point_model.py::CWHSpacecraft", "safe_autonomy_dynamics/cwh/point_model.py::CWHDynamics", "safe_autonomy_dynamics/cwh/point_model.py::generate_cwh_matrices", "safe_autonomy_dynamics/base_models.py::BaseODESolverDynamics._step"]}
{"id": "C124", "title": "A spinning 3d spacecraft under Euler", "statement": "In exact arithmetic, a 6DOF spacecraft with Euler's method that turns at constant rates w within its limits, about a principal axis or with equal moments of inertia, and is asked for no moments (and for any thrusts) keeps its rates exactly. In k calls of T seconds its quaternion gets longer by exactly the factor (1 + (|w| T / 2)^2)^(k/2) and turns about w exactly as far as the true one turns in k (2 / |w|) arctan(|w| T / 2) seconds, which is behind the simulated time by at most k |w|^2 T^3 / 12. Whatever moments and thrusts are asked for, the quaternion never gets shorter, and in calls of at most h seconds its squared length grows at most by the factor exp(W h t / 4), where W is the sum of the squares of the three rate limits.", "quantifier": "every parameter, earlier operation, state within the rate limits, and history of calls with actions and durations", "why_tests_cant": "Must hold after every finite history of calls; a test replays a few histories.", "anchors": ["safe_autonomy_dynamics/cwh/sixdof_model.py::SixDOFSpacecraft", "safe_autonomy_dynamics/cwh/sixdof_model.py::SixDOFDynamics", "safe_autonomy_dynamics/base_models.py::BaseODESolverDynamics._step"]}
{"id": "C125", "title": "Thrust and the centre of a relative orbit", "statement": "In exact arithmetic, each call of T seconds on a point-mass spacecraft with thrust u within the limits moves the centre (X, Y) = (4 x + 2 y_dot / n, y - 2 x_dot / n) of its relative orbit by exactly 2 T u_y / (m n) radially and, along the track, by exactly -3/2 n X T - 2 T u_x / (m n), less 3/2 u_y T^2 / m with RK45, whatever the state and the solver steps; calls that raise move nothing. So after any history the relative orbit has stopped drifting (y_dot = -2 n x) if and only if the along-track thrusts, clipped to the limits, times the durations of the calls that returned add up to -m n / 2 times the first X, however they are spread over time.", "quantifier": "every mass and n, earlier operation, state, history of calls with actions and durations, and choice of solver steps", "why_tests_cant": "Must hold after every finite history of calls; a test replays a few histories.", "anchors": ["safe_autonomy_dynamics/cwh/point_model.py::CWHSpacecraft", "safe_autonomy_dynamics/cwh/point_model.py::CWHDynamics", "safe_autonomy_dynamics/cwh/point_model.py::generate_cwh_matrices", "safe_autonomy_dynamics/base_models.py::BaseODESolverDynamics._step"]}
{"id": "C126", "title": "How far thrust can take a point-mass spacecraft", "statement": "In exact real arithmetic with RK45 and calls of at most 0.9 / n seconds, no history of actions of any finite values takes a point-mass spacecraft of mass m > 0 further in t seconds than: radially, the size A of the ellipse it was on plus (2 + sqrt 5) t / (m n) from the centre of this orbit; along the track, 2 A + (2 + 2 sqrt 5) t / (m n) + 3/2 t^2 / m from where this centre has drifted to; across the plane, its swing plus t / (m n). Its velocities are bounded likewise: n A + sqrt 5 t / m radially, 2 n A + (3 + 2 sqrt 5) t / m about the drift rate along the track, n times the swing plus t / m across the plane. With Euler and calls of at most h seconds the same bounds hold with A, the swing and what thrust adds to them multiplied by exp(n^2 h t / 2).", "quantifier": "every mass and n > 0, earlier operation, state, history of calls with any actions of finite values and durations (up to 0.9 / n with RK45), and choice of solver steps", "why_tests_cant": "Must hold after every finite history of calls; a test replays a few histories.", "anchors": ["safe_autonomy_dynamics/cwh/point_model.py::CWHSpacecraft", "safe_autonomy_dynamics/cwh/point_model.py::CWHDynamics", "safe_autonomy_dynamics/cwh/point_model.py::generate_cwh_matrices", "safe_autonomy_dynamics/base_models.py::BaseODESolverDynamics._step"]}
{"id": "C127", "title": "Saving and restoring the state", "statement": "What an entity does from now on depends on nothing but its set-up and its state vector. If saved = a.state is read after any history of an entity a and assigned (b.state = saved) to any entity b set up alike, in particular to a itself later or to another entity built by the same constructor with the same parameters and any name and initial values, whatever has been done with b, then every further history has the same effects on b as it would have had on a: equal states, the same exceptions and warnings of every step, and from the first step that returns normally on equal state derivatives. This holds for users' own models as well. The assignment itself restores the state only: state_dot, and so the acceleration an aircraft reports, remains that of the last completed step.", "quantifier": "every entity, integration method and solver, history before saving, history of the restored entity, and further history of steps and assignments", "why_tests_cant": "Must hold after every finite history of calls; a test replays a few histories.", "anchors": ["safe_autonomy_dynamics/base_models.py::BaseEntity.step", "safe_autonomy_dynamics/base_models.py::BaseEntity.state", "safe_autonomy_dynamics/base_models.py::BaseDynamics.step", "safe_autonomy_dynamics/base_models.py::BaseODESolverDynamics._step"]}
{"id": "C128", "title": "Braking distance", "statement": "No sequence of actions stops an undamped point-mass integrator (1-d, 2-d or 3-d) in less than its braking distance. As long as the vehicle is not seen to turn round on an axis (the velocity there after every call has the sign of the direction of motion, or is zero), its position on the axis counted in that direction, plus m v^2 / 2, never falls. So when it is seen at rest on the axis it has moved at least m v^2 / 2 from any point where it was seen moving with speed v, and a vehicle whose braking distance reaches beyond a wall either passes the wall or is still moving towards it. The distance is attained: one RK45 call of m |v| seconds with full opposite thrust (or a larger request) stops the vehicle exactly there; the same call by Euler stops it after twice the distance. And it is enough: under full opposite thrust at every call, an integrator with RK45 is never seen more than m v^2 / 2 ahead, whatever the durations.", "quantifier": "every undamped integrator, method and solver steps, history before, requests, number and non-negative durations of the calls, failed calls included, axis and direction", "why_tests_cant": "Must hold after every finite history of calls; a test replays a few histories.", "anchors": ["safe_autonomy_dynamics/integrators.py::IntegratorDynamics", "safe_autonomy_dynamics/base_models.py::BaseEntity.step"]}
{"id": "C129", "title": "Printing a matrix", "statement": "printmat(mat, main_label, row_labels, col_labels) writes a heading and one line per row (a vector is one row), in columns of equal width: the smallest above 7 and above the length of every label, so that no label is ever cut. Labels are the words of the label strings, separated by single blanks. Column labels are right-aligned, row labels left-aligned; every number has width - 3 significant digits, correctly rounded, and is right-aligned; read back (in the only way possible), the text of a finite number differs from it by at most half a unit in its last significant digit, so numbers printed alike agree up to that. If every number is zero, NaN, infinite or of magnitude from 0.1 to 99999, all numbers stand below the labels of their columns; other numbers may be wider than a column (0.00012345 is) and shift the rest of their line. The main label is never printed: the first line is the text '{main_label} =' whatever it is. Labels that are not strings (for the rows: nor None nor []) raise AssertionError before anything is printed; a wrong number of row labels raises AssertionError and a number in place of a matrix IndexError, both after the heading has been printed; the number of column labels is not checked.", "quantifier": "every matrix, vector or number, all labels, and every format of the numbers; alignment for every matrix of the numbers described", "why_tests_cant": "The input space is infinite (all floats, all lengths, all action kinds); a test samples a handful of vectors.", "anchors": ["safe_autonomy_dynamics/external/aerobench/util.py::printmat"]}
{"id": "C130", "title": "Dividing a duration into calls", "statement": "How a duration is divided into calls under a constant request. With RK45, any number of calls of positive durations on an integrator (damped or not) or a point-mass spacecraft, with any solver steps in each, ends in a state in which one call of the whole duration ends for some choice of solver steps: stepping in pieces is never worse than one of the outcomes of a single call. For an undamped integrator with RK45 the state depends on the total time of the calls that returned only, however it is divided and whatever steps the solver takes. With Euler the velocity does not depend on the division but the position does: it lags behind uniform acceleration by the acceleration (thrust within its limits over mass) times half the sum of the squared durations, so by one N-th of a T^2 / 2 after N equal calls.", "quantifier": "every number and durations of the calls, solver steps, request, state and history before, mass and damping; calls that raise do not count", "why_tests_cant": "Must hold for every accepted-step schedule the adaptive solver may choose; a test observes one schedule per run.", "anchors": ["safe_autonomy_dynamics/base_models.py::BaseODESolverDynamics._step", "safe_autonomy_dynamics/integrators.py::IntegratorDynamics", "safe_autonomy_dynamics/cwh/point_model.py::CWHSpacecraft"]}
{"id": "C131", "title": "Exactly which states an integrator can reach in a given time", "statement": "The states an undamped integrator with RK45 can be in a time t after it was seen at position x with velocity v on an axis are exactly these: with p = m (v' - v), |p| <= t and |4 m (x' - x - v t) - 2 t p| <= t^2 - p^2. No history of calls of non-negative durations (adding up to t), with any requests and solver steps, leads to another state, and every one of these is reached exactly, whatever steps the solver takes, by three calls with thrusts within the limits. In particular going from rest to rest over a distance D takes at least the time 2 sqrt(m D), and that is enough.", "quantifier": "every history of calls and before, requests, durations, solver steps, state, mass, axis; every attainable state", "why_tests_cant": "Must hold after every finite history of calls; a test replays a few histories.", "anchors": ["safe_autonomy_dynamics/integrators.py::IntegratorDynamics", "safe_autonomy_dynamics/base_models.py::BaseEntity.step"]}
{"id": "C132", "title": "How fast the planar spacecraft turns", "statement": "No sequence of actions turns a CWHRotation2dSpacecraft faster than its limits, with Euler's method and with RK45 whatever steps the solver takes: in the time t its angular velocity changes by at most t times the (smaller) limit of the angular acceleration, and the spacecraft turns by at most t times the limit of the angular velocity, so facing a direction at the angle d takes at least d / limit. (The corresponding bound fails for the speed of a Dubins aircraft with RK45.) From rest, a moment for a time T and then the opposite moment for a time T bring the spacecraft, with RK45, exactly to rest again, turned by exactly a T^2, if a T stays below the limit of the angular velocity, whatever the thrusters do and however the two halves are split into calls.", "quantifier": "all masses, inertias and limits, histories of operations before, finite states with an angular velocity within the limits, histories of calls of non-negative durations with any finite requests, failed calls included, and all solver schedules; in exact arithmetic", "why_tests_cant": "Must hold after every finite history of calls; a test replays a few histories.", "anchors": ["safe_autonomy_dynamics/cwh/rotational_model.py::CWHRotation2dSpacecraft", "safe_autonomy_dynamics/base_models.py::BaseODESolverDynamics.compute_state_dot", "safe_autonomy_dynamics/base_models.py::BaseEntity.step"]}
{"id": "C133", "title": "How an aircraft's heading changes", "statement": "Over any sequence of calls the heading of a Dubins2dAircraft changes, up to whole turns, by exactly the sum over the calls that return of the heading rate, saturated to its limits, times the duration: with Euler's method and with RK45, whatever steps the solver takes and whatever the accelerations and the speed are. So it turns by at least the lower and at most the upper limit of the heading rate times the time, and two aircraft with the same start heading whose sums agree end with the same heading, even if their methods, solvers, limits or orders of calls differ. A Dubins3dAircraft with Euler's method, v_min > 0 and roll limits within +-R, R < pi/2, turns by at most 32.17 tan(R) / v_min times the total duration, whatever the actions.", "quantifier": "all limits, histories of operations before, finite states (3d: speed and roll within the limits), histories of calls with any finite requests, failed calls included (bounds: non-negative durations), and all solver schedules (2d); in exact arithmetic", "why_tests_cant": "Must hold after every finite history of calls; a test replays a few histories.", "anchors": ["safe_autonomy_dynamics/dubins.py::Dubins2dDynamics.state_transition_system", "safe_autonomy_dynamics/dubins.py::Dubins3dDynamics.state_transition_system", "safe_autonomy_dynamics/base_models.py::BaseEntity.step", "safe_autonomy_dynamics/base_models.py::BaseODESolverDynamics.compute_state_dot"]}
{"id": "C134", "title": "How fast an aircraft climbs, and that it cannot hover", "statement": "With Euler's method, whatever the actions, a Dubins3dAircraft with v_min > 0 and flight path angles limited to [gamma_min, gamma_max] within [-pi/2, pi/2] around 0 lowers its z coordinate by at most v_max sin(gamma_max) and raises it by at most v_max sin(-gamma_min) per second of total duration. A Dubins2dAircraft with heading rates within +-R cannot hover: in a time t with R t <= pi/2 it advances by at least v_min cos(R t) t along its heading at the start, and so moves at least that far in a straight line. With RK45 this fails: where braking by a would bring the speed down to v_min early in a step of the solver (v - 3/40 a T <= v_min), the aircraft flies T (v - 35/384 a T), which is less than v_min T, and so backwards if v < 35/384 a T.", "quantifier": "all limits, histories of operations before, finite states with speed and flight path angle within the limits, histories of calls of non-negative durations with any finite requests; all step durations that reach the limit early (RK45); in exact arithmetic", "why_tests_cant": "Must hold after every finite history of calls; a test replays a few histories.", "anchors": ["safe_autonomy_dynamics/dubins.py::Dubins2dDynamics.state_transition_system", "safe_autonomy_dynamics/dubins.py::Dubins3dDynamics.state_transition_system", "safe_autonomy_dynamics/dubins.py::Dubins3dAircraft", "safe_autonomy_dynamics/base_models.py::BaseEntity.step"]}
{"id": "C135", "title": "How fast an aircraft speeds up, pitches and rolls", "statement": "Whatever the actions, in the time t of the calls that return a Dubins2dAircraft gains at least acceleration_min t and at most acceleration_max t of speed, so that changing the speed by d takes at least d / limit, with Euler's method and with RK45 whatever steps the solver takes; although RK45 oversteps the speed limits within its steps (C104, C134), this bound is not lost. With Euler's method the same holds for the speed, the flight path angle and the roll of a Dubins3dAircraft with the limits of their rates.", "quantifier": "all limits with v_min < v_max and rate limits around 0, histories of operations before, finite states within the limits, histories of calls of non-negative durations with any finite requests, failed calls included (2d), and all solver schedules (2d); in exact arithmetic", "why_tests_cant": "Must hold after every finite history of calls; a test replays a few histories.", "anchors": ["safe_autonomy_dynamics/dubins.py::Dubins2dAircraft", "safe_autonomy_dynamics/dubins.py::Dubins3dAircraft", "safe_autonomy_dynamics/base_models.py::BaseODESolverDynamics.compute_state_dot", "safe_autonomy_dynamics/base_models.py::BaseEntity.step"]}
{"id": "C136", "title": "How close two aircraft can come", "statement": "With Euler's method, two Dubins2dAircraft or two Dubins3dAircraft, whatever each is told to do, come closer to each other, and get farther apart, by at most v_max t of the one plus v_max' t' of the other, where t and t' are the total durations of their steps. So two aircraft at the distance d cannot meet before the time d / (v_max + v_max'). With RK45 the same holds for two Dubins2dAircraft with the wider bound of C104 for each.", "quantifier": "all limits with positive (2d: non-negative) least speeds, histories of operations before, starting states with speeds within the limits, and histories of steps of non-negative durations under any finite actions; in exact arithmetic", "why_tests_cant": "Must hold after every finite history of calls; a test replays a few histories.", "anchors": ["safe_autonomy_dynamics/dubins.py::Dubins2dAircraft", "safe_autonomy_dynamics/dubins.py::Dubins3dAircraft", "safe_autonomy_dynamics/base_models.py::BaseEntity.step"]}
