{
 "C01": {
  "status": "proved",
  "note": "Refinement of the array to a time-indexed map, all call sequences."
 },
 "C02": {
  "status": "proved",
  "note": "Accesses outside the window are detected (assertion) for get, popFront, setValue; exact characterisation."
 },
 "C03": {
  "status": "partial",
  "note": "setFirstIndex holds. The claim for setLastIndex is false in the code (off by two); the negation, the exact effect and a _partial theorem are proved."
 },
 "C04": {
  "status": "partial",
  "note": "truncateAfter holds. truncateBefore is wrong in the code in two cases; negation with witnesses, exact behaviour in the remaining cases proved."
 },
 "C05": {
  "status": "proved",
  "note": "Round trips up to the text format of a number; the no-stamp readers that misbehave are characterised by separate theorems."
 },
 "C06": {
  "status": "proved",
  "note": ""
 },
 "C07": {
  "status": "proved",
  "note": "For every one-step estimator that uses the buffers like the Kalman filters do."
 },
 "C08": {
  "status": "proved",
  "note": ""
 },
 "C09": {
  "status": "proved",
  "note": "For every one-step estimator that does not modify the buffers."
 },
 "C10": {
  "status": "partial",
  "note": "The documented clearing never happens (the branch is dead): negation and exact effect proved."
 },
 "C11": {
  "status": "partial",
  "note": "False in the code for p>0 without inputs (general negation); proved for p=0 or with inputs provided."
 },
 "C12": {
  "status": "proved",
  "note": "setMeasurement, setInput and the push functions."
 },
 "C13": {
  "status": "partial",
  "note": "getInputTime asserts on the measurement buffer: negation and the part that holds are proved."
 },
 "C14": {
  "status": "proved",
  "note": "Exact effect of every size setter of the base class and of the linear filter; the cached predictions xbar_/ybar_ are not part of the cleared data (the linear filter recomputes them in every step; for the extended filter see C22)."
 },
 "C15": {
  "status": "proved",
  "note": "For every derived class that only stores predictions (both do), every history of calls; exact real arithmetic."
 },
 "C16": {
  "status": "proved",
  "note": "Joseph form, below prediction, below every other gain, for every derived class."
 },
 "C17": {
  "status": "proved",
  "note": "Through the public interface of the linear filter, any horizon, any data."
 },
 "C18": {
  "status": "proved",
  "note": "Linear filter through its public interface."
 },
 "C19": {
  "status": "proved",
  "note": "Any derived class and arithmetic with y-y=0, x+0=x. C19_kinetics: the same for update() of the kinetics observer after any history; C19_kinetics_alone: an iteration without sensors leaves the prediction."
 },
 "C20": {
  "status": "proved",
  "note": "One step, one sampling time through the interface, any number of sampling times."
 },
 "C21": {
  "status": "proved",
  "note": "One step and whole cycles with the matrices computed by getAMatrixFD/getCMatrixFD, affine and linear functors, any horizon."
 },
 "C22": {
  "status": "partial",
  "note": "The claim is false for the code (C22_false: a prediction asked for before setState at the same time is reused). Proved: it holds for every history in which state, functor and inputs are not replaced between a prediction and the step (C22_partial)."
 },
 "C23": {
  "status": "partial",
  "note": "Proved in full for the linear filter. For the extended filter the claim is false (C23_extended_false: predictions stored before the reset are reused when restarting at the same times); proved when the filter is not restarted before the time of an old prediction (C23_extended_partial)."
 },
 "C24": {
  "status": "partial",
  "note": "False for the code when m and mt differ (C24_dimensions shows the check passes exactly when m = mt) and for a measurement difference other than subtraction (C24_false_arith). Proved when m = mt with componentwise subtraction."
 },
 "C25": {
  "status": "partial",
  "note": "For every history with rotations, positive limits on both axes (C25_partial), no limits (C25_unlimited); no other failures (C25_defined). The one-sided case is false for the code: an uninitialised number is read (C25_false)."
 },
 "C26": {
  "status": "partial",
  "note": "False for the code (C26_false: the correction of the DCM is not rotated). Proved: the exact change of the sum (C26_exact), and preservation exactly when the orientation is the identity or nothing is clamped (C26_partial)."
 },
 "C27": {
  "status": "partial",
  "note": "False for the code: setDcmMeasureErrorStd has no effect (C27_false), setBiasDriftPerSecond sets another covariance (C27_false_drift) and is forgotten (C27_drift_forgotten). Proved for the other three setters, in any order and interleaved with any use. One-dimensional estimator: C27_unidim_partial (all five matrices after any history without the two broken setters), C27_unidim_false."
 },
 "C28": {
  "status": "partial",
  "note": "False right after construction or reset when setInputs is called twice without update (C28_false). Proved for every use in which earlier data have been processed, all orientations. One-dimensional estimator: full claim (C28_unidim, C28_unidim_predict, C28_unidim_batch)."
 },
 "C29": {
  "status": "proved",
  "note": "Constructor for all parameters; reset after any history. Also for the one-dimensional estimator."
 },
 "C30": {
  "status": "proved",
  "note": "All histories of all methods, all translations. Also for the one-dimensional estimator (C30_unidim)."
 },
 "C31": {
  "status": "proved",
  "note": "Every step of every run leaves a unit tilt, and no step divides by zero."
 },
 "C32": {
  "status": "partial",
  "note": "Measurements given one at a time: proved. Two stored measurements before an estimation: proved. Three or more stored: the run stops on an assertion (C32_false), so the claim as stated is refuted (C32_negation)."
 },
 "C33": {
  "status": "proved",
  "note": "Exact tracking for consistent noise-free measurements, per step and in the limit forms stated in the theorems."
 },
 "C34": {
  "status": "proved",
  "note": "For every vector: rotation matrix, unit quaternion, same rotation, inverse by negation; exponential above the threshold 1e-16, identity below."
 },
 "C35": {
  "status": "proved",
  "note": "Both directions, for quaternions and matrices, with the threshold 1e-16 made explicit; the logarithm statement holds without threshold."
 },
 "C36": {
  "status": "proved",
  "note": "Product of elementary rotations; angles recovered on the stated ranges; conversely every rotation with |R20| < 1 is rebuilt."
 },
 "C37": {
  "status": "proved",
  "note": ""
 },
 "C38": {
  "status": "proved",
  "note": "Exact unit vectors; rotation, mapping and fixed normal outside the near-equal and near-opposite cases, identity in the first, exception exactly in the second."
 },
 "C39": {
  "status": "proved",
  "note": "Rotation, tilt, yaw direction, optimality among rotations with that tilt, exception exactly in the singular set, idempotence. Axis-agnostic version: exact when the two tilts coincide or differ by more than epsilon1."
 },
 "C40": {
  "status": "proved",
  "note": "Pure yaw for all three functions, additivity modulo a turn (for the plain version when the x axis is not mapped to the vertical), meaning of the agnostic yaw, rotationMatrixToAngle."
 },
 "C41": {
  "status": "partial",
  "note": "Rotations are accepted, and reflections rejected unless their last column is within the precision of +-e_y; exchanging y and z is a reflection that passes (C41_false), so the claim as stated is refuted."
 },
 "C42": {
  "status": "partial",
  "note": "Proved for norms up to pi (2^33 - 1); beyond, the conversion to unsigned overflows (C42_false)."
 },
 "C43": {
  "status": "proved",
  "note": "Homogeneous matrices, pose vectors, involution, identity pose and derivatives along trajectories."
 },
 "C44": {
  "status": "proved",
  "note": "Position, velocity and acceleration, pointwise and along any motion."
 },
 "C65": {
  "status": "partial",
  "note": "Equality of repeated calls is proved for every sensor and any interleaving; the call succeeds except with a noise and appended inputs, where an assertion fails (C65_succeeds_false)."
 },
 "C66": {
  "status": "partial",
  "note": "Accelerometer and gyrometer proved. The magnetometer uses the field of the call, not the field given to the constructor (C66_magnetometer_false); the rest is C66_magnetometer_partial."
 },
 "C72": {
  "status": "proved",
  "note": "Four classes, any history of public calls, with and without noise."
 },
 "C73": {
  "status": "proved",
  "note": "Both fixed-contact classes, any history, any number of contacts."
 },
 "C45": {
  "status": "partial",
  "note": "The measurement Jacobian is the derivative of the measurement along every curve of states (C45_measurement), whatever the history; stateSum is the exact increment above 1e-16. derivateRtvMultiplicative has the opposite sign (C45_rtv_false, C45_rtv_partial)."
 },
 "C60": {
  "status": "proved",
  "note": "Multiplicative IMU system and kinetics observer (sum, difference, both round trips for each, zero). stateDifference into a new vector is undefined unless all components are in use (C60_observer_new, C60_observer_new_false). The arithmetic that the offline estimation gives to its filter is that of the multiplicative IMU system (C60_filter)."
 },
 "C67": {
  "status": "proved",
  "note": "Factor, moments and law (C67_gaussian), any dimension. The header also promises singular covariances: false (C67_semidefinite_false)."
 },
 "C74": {
  "status": "proved",
  "note": ""
 },
 "C75": {
  "status": "proved",
  "note": ""
 },
 "C46": {
  "status": "proved",
  "note": "Refinement: every sequence of operations on a store of Orientation objects (all the constructors, assignments, conversions, products, inverse, integration, differentiation) returns what the same operations on rotation matrices return, and asserts exactly when the reference is unset. setMatrix/setQuaternion (raw mutable references) are not part of the operation alphabet."
 },
 "C47": {
  "status": "proved",
  "note": "Both directions, for increments of norm zero or in (1e-16, pi)."
 },
 "C48": {
  "status": "proved",
  "note": "Also proved as composition of moving frames: the fields of the product and of the inverse are the derivatives of the composed (inverted) rigid motion."
 },
 "C49": {
  "status": "proved",
  "note": "The product asserts exactly when the first operand has no orientation or the second has neither position nor orientation."
 },
 "C50": {
  "status": "proved",
  "note": "Both directions, layout, lengths and assertions."
 },
 "C51": {
  "status": "proved",
  "note": "Angular part under a constant axis and with rotation increments that are zero or longer than 1e-16 (shorter ones are neglected by the code). Also: the integrated curves have the expected derivatives."
 },
 "C52": {
  "status": "partial",
  "note": "Assertion condition, copies, agreement with integrate, all the reconstructions. False as stated: C52_flags_false (angular acceleration stays unset), C52_nothing_new_false (2 a dt^2 instead of a dt^2/2), C52_acceleration_false (known velocity neglected), C52_angular_acceleration_false (opposite sign)."
 },
 "C53": {
  "status": "proved",
  "note": "In every reachable state the documented segments of the state vector (and of the tangent vector) are pairwise disjoint and cover the vector; index functions are defined for every set contact and every IMU number in range. The constructor succeeds exactly when at least one IMU is allowed (C53_constructible)."
 },
 "C54": {
  "status": "partial",
  "note": "In every state reachable with positive semidefinite arguments the state covariance and the process covariance are positive semidefinite (C54_reachable_psd); every dedicated setter and every reset function replaces exactly the rows and columns of its own tangent segment. False for setGyroBias (block shifted by one), setStateUnmodeledWrench (out of range without contacts) and setStateKinematics with set contacts when asked to reset the covariance (state index used in the tangent matrix)."
 },
 "C55": {
  "status": "partial",
  "note": "addContact returns a free slot, the smallest free one when numbered automatically, adds exactly it, and succeeds whenever a slot is free; getListOfContacts is the list of added and not removed contacts for every history without clearContacts. False: removeContact of a set contact always fails its assertion, getNumberOfContacts is the maximum number of contacts, and after clearContacts no contact can be added any more."
 },
 "C57": {
  "status": "partial",
  "note": "With an explicit number the data is stored in that IMU, which must not have been used in this iteration, and no other IMU changes. False for automatic numbering: setIMU with a negative number never returns (C57_false)."
 },
 "C58": {
  "status": "proved",
  "note": "For every history: data time is the estimation time or one ahead, update moves the estimation time to the data time and a second update changes nothing, data-bringing calls move the data time to one ahead, other calls leave the clock."
 },
 "C59": {
  "status": "partial",
  "note": "setWithUnmodeledWrench and setWithAccelerationEstimation set their own option only. False for setWithGyroBias: it changes the acceleration option and the gyro bias option stays on in every reachable state."
 },
 "C62": {
  "status": "proved",
  "note": "For all functors, inputs, horizons: whenever simulateDynamicsTo returns, states and measurements follow the dynamics with the input in force, nothing earlier changes; it returns under the natural hypotheses; getInput is the entry with the greatest time not after i, for every history; C62_functor: another functor given during the simulation changes only the steps that follow."
 },
 "C63": {
  "status": "partial",
  "note": "Already computed values are returned unchanged (first measurement excepted). False: getState and getMeasurement beyond the horizon never return, for every state, dynamics and index; the first measurement cannot be read; measurements of discarded states are returned."
 },
 "C64": {
  "status": "partial",
  "note": "setState: exact acceptance condition and effect. setInput: false, for every history a second input for the same time is ignored; holds for times without input."
 },
 "C68": {
  "status": "partial",
  "note": "For every history without updateAddress the record is exactly the values at the pushes, with indexing. False: push(address) never returns, updateAddress loses the recorded values in every state, loses tracking for the same address, accepts types that cannot be logged."
 },
 "C69": {
  "status": "proved",
  "note": "clampScalar nearest point, signum, checkIfNormalized, normalizedLazy for non-zero vectors, the square root recursion: result correct when it ends, iterates converge to the root. Over the reals. Difference of two times: C69_timeDiff."
 },
 "C70": {
  "status": "partial",
  "note": "False for all negative gains and all non-zero positions: the acceleration at rest points away from zero (C70_away); the returned value is exactly the opposite of the converging control (C70_opposite); the vector version never writes the first component. Holds with kv positive and for the other components."
 },
 "C77": {
  "status": "partial",
  "note": "Holds when the measurements join the index. False when the next state is set after a simulation step (for every such state)."
 },
 "C78": {
  "status": "proved",
  "note": "For every state of a history; file names shared by two variables are excluded (C78_shared_file shows what happens)."
 },
 "C79": {
  "status": "partial",
  "note": "False at zero: isApprox(0,0) is false for every precision. Holds elsewhere; symmetric, scale invariant."
 },
 "C71": {
  "status": "partial",
  "note": "Fixed contacts: the covariance given to the filter is exactly the requested one after every call sequence, setters always succeed, covariances stay PSD/PD. Model-based estimator: see C95 (the saturation fails for the second contact and the torques)."
 },
 "C80": {
  "status": "partial",
  "note": "False: setSamplingPeriod only writes an unused member (C80_false); removing the calls changes nothing (C80_ignored)."
 },
 "C81": {
  "status": "partial",
  "note": "Vectors are accepted and become the state of the filter; homogeneous matrices always fail an assertion; the vector returned ignores the guess until a measurement arrives."
 },
 "C82": {
  "status": "proved",
  "note": "Exact computation of the step for every reachable estimator; undefined behaviour for orientation vectors longer than pi(2^33-1), see C42."
 },
 "C83": {
  "status": "partial",
  "note": "Holds between the input and the measurement; false when the number of contacts changes afterwards: the old prediction is kept and an assertion fails."
 },
 "C61": {
  "status": "partial",
  "note": "Euler's equation proved for every robot described by the observer (C61_euler). Newton's law is false: the centrifugal term is counted twice (kinetics-observer.cpp 1368); C61_newton_defect gives the exact error for every state, C61_newton_partial the states where the law holds, C61_false a reachable witness."
 },
 "C84": {
  "status": "partial",
  "note": "Contacts without wrench sensor only (C56: an observer with a wrench sensor makes at most one estimation), explicit numbers for the IMUs (C57: the automatic ones never return); the numbers of the contacts may be automatic (C84_automatic); the state is given by setStateVector or setStateKinematics, and may be changed by setGyroBias and setStateUnmodeledWrench; the list of the calls is KO/ClientSpec.lean."
 },
 "C56": {
  "status": "partial",
  "note": "False with an absolute pose sensor (update() never returns, C56_pose_false) and with a wrench sensor (at most one estimation, C56_frozen_false, C56_wrench_false). Proved: whenever update() returns with new data the measurement vector has exactly the room of what is written into it; in an iteration that begins without a wrench sensor the announced size is exact."
 },
 "C76": {
  "status": "partial",
  "note": "False: after the first call for an IMU, a call without a velocity or the linear acceleration never returns (division by an elapsed time of zero). Proved: the first call, and every call with complete kinematics, return and store what was given."
 },
 "C85": {
  "status": "proved",
  "note": "For every reachable state with positive semidefinite covariances in which update() returns; when it returns is C84 and C56."
 },
 "C86": {
  "status": "partial",
  "note": "False in general (C86_false: Coriolis term with the height instead of the abscissa; C86_elasticity_false: uninitialised elasticity). Proved for the integration and, when the abscissa or the angle does not move or the abscissa equals the height, for the angular momentum."
 },
 "C87": {
  "status": "partial",
  "note": "For every reachable system and every motion; the call returns with at most two contacts (C87_return). With three or more elastic contacts it fails an assertion (C87_three_contacts_false)."
 },
 "C88": {
  "status": "partial",
  "note": "The code uses the mass 56.8 whatever the mass given (C88_mass_false) and the linear velocity as the angular one (C88_velocity_false); proved for a robot of that mass, and for the kinematics when both velocities are equal."
 },
 "C89": {
  "status": "partial",
  "note": "Spring, isotropy, dissipation, ropes, rest and return proved for at most two contacts; false for three (C89_three_contacts_false), and the moment of a rope is not counted (C89_rope_moment_false)."
 },
 "C90": {
  "status": "partial",
  "note": "Proved without process noise; with one the result is a stale or empty vector (C90_noise_false, C90_noise_empty_false)."
 },
 "C91": {
  "status": "partial",
  "note": "IMU law, sizes, forces, drifted pose and return proved without noise; false before a first state computation (C91_first_false), with noise and forces or pose (C91_noise_false), for the third contact (C91_third_contact_false) and for four or more (C91_four_contacts_false)."
 },
 "C92": {
  "status": "partial",
  "note": "Every column is the finite difference at the perturbed state, without noise, and asking again gives the same; inactive columns exact for bias and drift, false for the unmodeled forces (C92_unmodeled_false)."
 },
 "C93": {
  "status": "partial",
  "note": "Size and use of the matrix, whole and IMU covariance, reset proved; false: variances chosen later have no effect (C93_setVariance_false), uninitialised coefficients (C93_default_false, C93_contacts_false, C93_pose_false), 3x3 variance (C93_matrix3_false)."
 },
 "C94": {
  "status": "partial",
  "note": "Sizes, reset and given covariances proved; enabling an option alone is proved to have no effect on its estimate, in every execution (C94_options_false)."
 },
 "C95": {
  "status": "partial",
  "note": "Proved for the force of the first contact; the force of the second contact is bounded by the torques limit (C95_second_false) and the torques are not limited (C95_torque_false)."
 },
 "C97": {
  "status": "partial",
  "note": "Proved for the vector, the momenta and the restart; the accelerations fail an assertion (C97_accelerations_false)."
 },
 "C98": {
  "status": "partial",
  "note": "Effect on the filter proved for state and pose vectors; false for homogeneous matrices, the returned vector, the bias guess after a guess, a guess after getPrediction, and the forces of three contacts or more."
 },
 "C96": {
  "status": "partial",
  "note": "Proved for executions that do not ask for predictions in between (those reuse cached predictions, C98_stale_false); the steps chosen by the client have no effect (C96_dx_false). The call returns unless the corrected orientation is larger than what C42 allows."
 },
 "C99": {
  "status": "partial",
  "note": "Observation matrix and simulated measurement proved; accelerations and momenta depend on the order of evaluation (C99_order_false); on a new estimator two of the calls fail an assertion."
 },
 "C100": {
  "status": "partial",
  "note": "Proved with the period 0.005 that the code uses whatever the caller gives (C100_false); undefined behaviour exactly when a corrected orientation is beyond what C42 allows."
 },
 "C101": {
  "status": "proved",
  "note": "For positive semidefinite P and Q and positive definite R."
 },
 "C102": {
  "status": "proved",
  "note": "For positive semidefinite P and Q and positive definite R. The state Jacobian is the derivative when the rotation of one period is above 1e-16; below, it counts it as null; nothing is said at exactly 1e-16."
 },
 "C103": {
  "status": "proved",
  "note": "Histories where the kinematics given to setStateKinematics are coherent (C46)."
 },
 "C104": {
  "status": "partial",
  "note": "The pose has no effect on the next estimation (C104_pose_false) and the stiffness is ignored without a damping (C104_stiffness_false). Proved: the filter has the pose after any of the state setters, and every other call keeps it; the three other gains."
 },
 "C105": {
  "status": "proved",
  "note": "The options of the gyrometer biases and of the accelerations are in C59."
 },
 "C106": {
  "status": "partial",
  "note": "The predicted wrench of the contacts is not the one of the spring and damper (C106_false); proved: what is computed instead (C106_computed_partial), the exact condition for the force (C106_force_partial), a case where both agree (C106_spring_partial), and everything else of the statement."
 },
 "C107": {
  "status": "proved",
  "note": "Rotation vectors shorter than 1e-16 give no rotation, as in C34."
 },
 "C109": {
  "status": "partial",
  "note": "The statement fails in the code: both theorems prove its negation for every execution in which the covariances given by the client have no terms between these components and the others (the default ones have none). C109_example shows any number of estimations with any rates of the gyrometer."
 },
 "C108": {
  "status": "partial",
  "note": "The statement fails in the code for the bias of the gyrometers (C108_false). Proved: the whole predicted vector without the bias (C108_computed_partial), its physical meaning (C108_physics), and that the prediction returns (C108_returns). Iterations with an absolute pose are excluded: no estimation with one returns (C56)."
 },
 "C110": {
  "status": "partial",
  "note": "The statement fails in the code for the first values (C110_first_false, C110_constant_false) and for a value corrected in the same iteration (C110_corrected_false). Proved in all other cases, for every form of the setters (C110_*_partial), with the derivatives that are given (C110_given) and the frame (C110_others). The inertia given by six numbers supposes that the one given before is symmetric."
 },
 "C111": {
  "status": "partial",
  "note": "C111_online and C111_returns: equivalence with the online estimator, in full. The times are those of the measurements if the first is not negative (C111_times_partial, C111_times_false). The run of the filter (C111_run_partial) supposes a covariance of the measurement noise for every time, or a constant one without force measurements (C111_force_false)."
 },
 "C112": {
  "status": "proved",
  "note": "For all numbers whose text can be read (in the C++ library: finite numbers); C112_unreadable_false says what happens otherwise. Printing and reading of one number are parameters of the model."
 },
 "C113": {
  "status": "proved",
  "note": "C113_acceleration_differs shows that the agreement with update does not extend to the acceleration."
 },
 "C114": {
  "status": "partial",
  "note": "C114_statement is false (C114_false: the third stage exchanges forces and moments); C114_stages says what is computed, C114_partial proves the claim where forces and moments are equal or there is no contact."
 },
 "C115": {
  "status": "proved",
  "note": "The law of the numbers drawn is a hypothesis; the generators of the standard library are not modelled."
 },
 "C116": {
  "status": "proved",
  "note": "Exact real arithmetic; R positive definite, Q and the initial covariance positive semidefinite."
 },
 "C117": {
  "status": "proved",
  "note": "Exact real arithmetic; Q and R positive definite, initial covariance positive semidefinite."
 },
 "C118": {
  "status": "proved",
  "note": "No limit on the bias; without setDcmMeasureErrorStd and setBiasDriftPerSecond before (they do not work, C27); exact real arithmetic."
 },
 "C119": {
  "status": "proved",
  "note": "Noises without correlation in time and with each other; exact real arithmetic."
 },
 "C120": {
  "status": "proved",
  "note": "Motion: uniform translation (the estimator integrates by the method of Euler, so it has no exact limit for a rotating sensor); exact real arithmetic."
 },
 "C121": {
  "status": "proved",
  "note": "Exact real arithmetic."
 },
 "C122": {
  "status": "partial",
  "note": "False with limits on the bias (C122_false): the saturation adds to the world DCM a vector in local coordinates. Proved without limits."
 },
 "C123": {
  "status": "proved",
  "note": "Exact reals; rotations of less than 1e-16 are neglected by the code, and excluded from the exact motion."
 },
 "C124": {
  "status": "partial",
  "note": "False for the last predicted measurement after getSimulatedMeasurement (C124_false): simulateSensor_ stores its result in the same member. All the rest proved."
 },
 "C125": {
  "status": "partial",
  "note": "False for the predicted wrenches of the contacts (C125_false): they depend on the origin of the world. Proved for all other components of the predicted state and for the predicted measurements; the forces for gains that commute with the rotation. The absolute pose sensor, whose measurement is a pose in the world, is not covered."
 },
 "C126": {
  "status": "proved",
  "note": "Exact reals; a null norm before the normalisation is the outcome ub in both runs."
 },
 "C127": {
  "status": "proved",
  "note": "Exact reals; default state arithmetic; the functor succeeds on all vectors of the sizes of the filter; Q positive semidefinite, R positive definite."
 },
 "C128": {
  "status": "proved",
  "note": "Acceptance of all the made matrices and vectors by the setters of a filter in any state, and the run with neutral matrices for the linear filter."
 },
 "C129": {
  "status": "partial",
  "note": "False (C129_fails for all positive state sizes, C129_false): the filter stops on an assertion because the empty matrix B was not set. Proved once any accepted B is set, with the result."
 },
 "C130": {
  "status": "proved",
  "note": "For observers in any state. Two calls for the same sensor or input are not exchanged (the last one counts)."
 },
 "C131": {
  "status": "partial",
  "note": "The unit of length for all uses (C131_length, C131_unidim_length), both units for uses without setBiasDriftPerSecond (C131_partial, C131_unidim_partial). With this call the full claim is false (C131_false)."
 },
 "C132": {
  "status": "proved",
  "note": "C132_superposition, C132_disturbance."
 },
 "C133": {
  "status": "partial",
  "note": "The noises have no effect (C133_ignored), so that the claim is false (C133_state_false, C133_measurement_false); it holds without noise (C133_partial)."
 },
 "C134": {
  "status": "proved",
  "note": "For finite numbers, as far as a number can be read back from its text (C134_print)."
 },
 "C135": {
  "status": "partial",
  "note": "The force, and the return of the call, for all situations (C135_wrench_partial). False for the torque (C135_wrench_false) and for extractFromVector (C135_extract_false; C135_extract_partial says what is returned)."
 },
 "C136": {
  "status": "partial",
  "note": "Tilt estimator: completely (C136_tilt). Kalman filters: the estimates of calls that return in both observers (C136_observer_partial, C136_linear_partial, C136_extended_partial), and the same failures without inputs or with a non-zero B. The failures are not the same for a linear filter with B = 0 and no inputs given (C136_false)."
 },
 "C137": {
  "status": "partial",
  "note": "The moment about the point of the plane of height 0 under the result is vertical (C137_partial), so the claim holds for contacts at height 0 (C137_ground_partial); refuted otherwise (C137_false). Support, frame, no contact, short vectors: completely."
 },
 "C138": {
  "status": "partial",
  "note": "Measurements: completely for logs without gap (C138_measurements); a gap stops the tool (C138_gap_false). States: all files but the one of the bias (C138_states_partial, C138_states_false). Inputs: long logs that always have a contact, short logs without contact (C138_inputs_partial), refuted otherwise (C138_inputs_false, C138_inputs_short, C138_inputs_long_false)."
 },
 "C139": {
  "status": "partial",
  "note": "Holds when the file of the gyrometer is not shorter than the one of the accelerometer (C139_partial) and when the indexes differ (C139_gap); refuted when it is shorter (C139_short, C139_false). Trajectory file: C139_trajectory, and a malformed file never ends or fails (C139_malformed_false)."
 },
 "C140": {
  "status": "partial",
  "note": "Holds for the predicted kinematics, biases, wrench that is not modelled, rest poses and forces of the contacts (C140_partial, C140_sign) and for the predicted measurements (C140_measurement); the predicted torques of the contacts depend on the sign (C140_torque_partial, C140_false)."
 },
 "C141": {
  "status": "proved",
  "note": "Four classes, any past calls, without measurement noise. The magnetic field is the constant of the library (C66)."
 },
 "C142": {
  "status": "proved",
  "note": "Four classes, any past calls. The orientation is equal as a rotation, with a rotation vector not longer than pi."
 },
 "C143": {
  "status": "proved",
  "note": "Position and linear velocity; the orientation of the stable system is not covered."
 },
 "C144": {
  "status": "proved",
  "note": "Any past calls. The orientation is exact from a unit quaternion (rotation during the period below 1e-16 neglected, as in C34)."
 },
 "C145": {
  "status": "proved",
  "note": "The class with a multiplicative state, and the class with fixed contacts. Steps (and, for fixed contacts, orientations of the states) that turn by an angle below 1e-16 but not zero are excluded by hypothesis: the code neglects them (C34)."
 },
 "C146": {
  "status": "proved",
  "note": "Data are read by getInput and getMeasurement after simulateDynamicsTo(K), for all times below K; the data exist (C146_data). State arithmetics by default (sum and difference of vectors)."
 },
 "C147": {
  "status": "proved",
  "note": "The true motion has constant accelerations during each sampling period, as the dynamics of the classes (rotations below 1e-16 during a period neglected, C34); such motions and data exist for every initial state and inputs (C147_data, C147_attitude_data)."
 },
 "C148": {
  "status": "partial",
  "note": "Refuted as stated (C148_false): the contacts get the forces of springs to the origin of the world (C106). C148_partial: with those forces and no torques, the angular springs being zero or the orientation the one of the world, the state vector is exactly unchanged, by one estimation and by any number of them (C148_forever_partial). Missing: the angular springs at other orientations."
 }
}