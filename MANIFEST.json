{
 "claims": [
  {
   "property": "C01",
   "status": "proved",
   "theorems": [
    "StateObs.IArrSpec.C01_array_refines_map",
    "StateObs.IArrSpec.C01_window",
    "StateObs.IArrSpec.C01_access",
    "StateObs.IArrSpec.C01_constructors"
   ],
   "note": "Refinement of the array to a time-indexed map, all call sequences."
  },
  {
   "property": "C02",
   "status": "proved",
   "theorems": [
    "StateObs.IArrSpec.C02_get",
    "StateObs.IArrSpec.C02_popFront",
    "StateObs.IArrSpec.C02_setValue"
   ],
   "note": "Accesses outside the window are detected (assertion) for get, popFront, setValue; exact characterisation."
  },
  {
   "property": "C03",
   "status": "partial",
   "theorems": [
    "StateObs.IArrSpec.C03_setFirstIndex",
    "StateObs.IArrSpec.C03_setLastIndex_off_by_two",
    "StateObs.IArrSpec.C03_setLastIndex_false",
    "StateObs.IArrSpec.C03_setLastIndex_partial"
   ],
   "note": "setFirstIndex holds. The claim for setLastIndex is false in the code (off by two); the negation, the exact effect and a _partial theorem are proved."
  },
  {
   "property": "C04",
   "status": "partial",
   "theorems": [
    "StateObs.IArrSpec.C04_truncateAfter",
    "StateObs.IArrSpec.C04_truncateBefore_partial",
    "StateObs.IArrSpec.C04_truncateBefore_last_dropped",
    "StateObs.IArrSpec.C04_truncateBefore_early_shifts",
    "StateObs.IArrSpec.C04_truncateBefore_false"
   ],
   "note": "truncateAfter holds. truncateBefore is wrong in the code in two cases; negation with witnesses, exact behaviour in the remaining cases proved."
  },
  {
   "property": "C05",
   "status": "proved",
   "theorems": [
    "StateObs.LogFile.C05_write_read",
    "StateObs.LogFile.C05_write_readVectors",
    "StateObs.LogFile.C05_append_session",
    "StateObs.LogFile.C05_noStamp_readVectors",
    "StateObs.LogFile.C05_noStamp_readFromFile_duplicates_last",
    "StateObs.LogFile.C05_noStamp_empty_file",
    "StateObs.LogFile.C05_write_unopenable"
   ],
   "note": "Round trips up to the text format of a number; the no-stamp readers that misbehave are characterised by separate theorems."
  },
  {
   "property": "C06",
   "status": "proved",
   "theorems": [
    "StateObs.CheckedSpec.C06_read_debug",
    "StateObs.CheckedSpec.C06_read_release",
    "StateObs.CheckedSpec.C06_isSet",
    "StateObs.CheckedSpec.C06_release_stale",
    "StateObs.CheckedFlag.C06_set"
   ],
   "note": ""
  },
  {
   "property": "C07",
   "status": "proved",
   "theorems": [
    "StateObs.EKF.C07_extended",
    "StateObs.LKF.C07_linear",
    "StateObs.Obs.C07_getEstimatedState",
    "StateObs.Obs.C07_fold"
   ],
   "note": "For every one-step estimator that uses the buffers like the Kalman filters do."
  },
  {
   "property": "C08",
   "status": "proved",
   "theorems": [
    "StateObs.EKF.C08_extended",
    "StateObs.LKF.C08_linear",
    "StateObs.Obs.C08_split",
    "StateObs.Obs.C08_any_split",
    "StateObs.Obs.C08_feed"
   ],
   "note": ""
  },
  {
   "property": "C09",
   "status": "proved",
   "theorems": [
    "StateObs.Obs.C09_buffers",
    "StateObs.Obs.C09_bounded"
   ],
   "note": "For every one-step estimator that does not modify the buffers."
  },
  {
   "property": "C10",
   "status": "partial",
   "theorems": [
    "StateObs.Obs.C10_setState_partial",
    "StateObs.Obs.C10_measurements_survive",
    "StateObs.Obs.C10_false"
   ],
   "note": "The documented clearing never happens (the branch is dead): negation and exact effect proved."
  },
  {
   "property": "C11",
   "status": "partial",
   "theorems": [
    "StateObs.Obs.C11_no_inputs_fails",
    "StateObs.Obs.C11_partial"
   ],
   "note": "False in the code for p>0 without inputs (general negation); proved for p=0 or with inputs provided."
  },
  {
   "property": "C12",
   "status": "proved",
   "theorems": [
    "StateObs.Obs.C12_setMeasurement",
    "StateObs.Obs.C12_setInput",
    "StateObs.Obs.C12_reachable",
    "StateObs.Obs.C12_pushMeasurement",
    "StateObs.Obs.C12_pushInput"
   ],
   "note": "setMeasurement, setInput and the push functions."
  },
  {
   "property": "C13",
   "status": "partial",
   "theorems": [
    "StateObs.Obs.C13_partial",
    "StateObs.Obs.C13_inputTime_fails",
    "StateObs.Obs.C13_false"
   ],
   "note": "getInputTime asserts on the measurement buffer: negation and the part that holds are proved."
  },
  {
   "property": "C14",
   "status": "proved",
   "theorems": [
    "StateObs.KF.C14_setStateSize",
    "StateObs.KF.C14_setTangentSize",
    "StateObs.KF.C14_setStateSize_same",
    "StateObs.KF.C14_setMeasureSize",
    "StateObs.KF.C14_setTangentMeasureSize",
    "StateObs.KF.C14_setMeasureSize_same",
    "StateObs.KF.C14_setInputSize",
    "StateObs.KF.C14_setInputSize_same",
    "StateObs.KF.C14_no_step_without_matrices",
    "StateObs.LKF.C14_lkf_setStateSize",
    "StateObs.LKF.C14_lkf_setMeasureSize",
    "StateObs.LKF.C14_lkf_setInputSize",
    "StateObs.LKF.C14_lkf_same"
   ],
   "note": "Exact effect of every size setter of the base class and of the linear filter; the cached predictions xbar_/ybar_ are not part of the cleared data (the linear filter recomputes them in every step; for the extended filter see C22)."
  },
  {
   "property": "C15",
   "status": "proved",
   "theorems": [
    "StateObs.KF.C15_step",
    "StateObs.KF.C15_history",
    "StateObs.KF.C15_innovation",
    "StateObs.KF.C15_step_singular"
   ],
   "note": "For every derived class that only stores predictions (both do), every history of calls; exact real arithmetic."
  },
  {
   "property": "C16",
   "status": "proved",
   "theorems": [
    "StateObs.KF.C16_minimum_variance"
   ],
   "note": "Joseph form, below prediction, below every other gain, for every derived class."
  },
  {
   "property": "C17",
   "status": "proved",
   "theorems": [
    "StateObs.LKF.C17_error"
   ],
   "note": "Through the public interface of the linear filter, any horizon, any data."
  },
  {
   "property": "C18",
   "status": "proved",
   "theorems": [
    "StateObs.LKF.C18_scaling"
   ],
   "note": "Linear filter through its public interface."
  },
  {
   "property": "C19",
   "status": "proved",
   "theorems": [
    "StateObs.KO.C19_kinetics",
    "StateObs.KO.C19_kinetics_alone",
    "StateObs.KO.C19_kinetics_example",
    "StateObs.KF.C19_zero_innovation",
    "StateObs.KF.C19_default"
   ],
   "note": "Any derived class and arithmetic with y-y=0, x+0=x. C19_kinetics: the same for update() of the kinetics observer after any history; C19_kinetics_alone: an iteration without sensors leaves the prediction."
  },
  {
   "property": "C20",
   "status": "proved",
   "theorems": [
    "StateObs.LKF.C20_step",
    "StateObs.LKF.C20_cycle",
    "StateObs.LKF.C20_run"
   ],
   "note": "One step, one sampling time through the interface, any number of sampling times."
  },
  {
   "property": "C21",
   "status": "proved",
   "theorems": [
    "StateObs.EKF.C21_cycle",
    "StateObs.EKF.C21_affine",
    "StateObs.EKF.C21_linear"
   ],
   "note": "One step and whole cycles with the matrices computed by getAMatrixFD/getCMatrixFD, affine and linear functors, any horizon."
  },
  {
   "property": "C22",
   "status": "partial",
   "theorems": [
    "StateObs.EKF.C22_partial",
    "StateObs.EKF.C22_stale_state",
    "StateObs.EKF.C22_false"
   ],
   "note": "The claim is false for the code (C22_false: a prediction asked for before setState at the same time is reused). Proved: it holds for every history in which state, functor and inputs are not replaced between a prediction and the step (C22_partial)."
  },
  {
   "property": "C23",
   "status": "partial",
   "theorems": [
    "StateObs.LKF.C23_linear",
    "StateObs.EKF.C23_extended_partial",
    "StateObs.EKF.C23_extended_false"
   ],
   "note": "Proved in full for the linear filter. For the extended filter the claim is false (C23_extended_false: predictions stored before the reset are reused when restarting at the same times); proved when the filter is not restarted before the time of an old prediction (C23_extended_partial)."
  },
  {
   "property": "C24",
   "status": "partial",
   "theorems": [
    "StateObs.EKF.C24_dimensions",
    "StateObs.EKF.C24_partial",
    "StateObs.EKF.C24_false_dims",
    "StateObs.EKF.C24_false_arith"
   ],
   "note": "False for the code when m and mt differ (C24_dimensions shows the check passes exactly when m = mt) and for a measurement difference other than subtraction (C24_false_arith). Proved when m = mt with componentwise subtraction."
  },
  {
   "property": "C25",
   "status": "partial",
   "theorems": [
    "StateObs.Lipm.C25_defined",
    "StateObs.Lipm.C25_partial",
    "StateObs.Lipm.C25_unlimited",
    "StateObs.Lipm.C25_false"
   ],
   "note": "For every history with rotations, positive limits on both axes (C25_partial), no limits (C25_unlimited); no other failures (C25_defined). The one-sided case is false for the code: an uninitialised number is read (C25_false)."
  },
  {
   "property": "C26",
   "status": "partial",
   "theorems": [
    "StateObs.Lipm.C26_exact",
    "StateObs.Lipm.C26_partial",
    "StateObs.Lipm.C26_false"
   ],
   "note": "False for the code (C26_false: the correction of the DCM is not rotated). Proved: the exact change of the sum (C26_exact), and preservation exactly when the orientation is the identity or nothing is clamped (C26_partial)."
  },
  {
   "property": "C27",
   "status": "partial",
   "theorems": [
    "StateObs.Lipm.C27_partial",
    "StateObs.Lipm.C27_partial_tuning",
    "StateObs.Lipm.C27_dcmStd_ignored",
    "StateObs.Lipm.C27_drift_forgotten",
    "StateObs.Lipm.C27_false",
    "StateObs.Lipm.C27_false_drift",
    "StateObs.Unidim.C27_unidim_partial",
    "StateObs.Unidim.C27_unidim_false"
   ],
   "note": "False for the code: setDcmMeasureErrorStd has no effect (C27_false), setBiasDriftPerSecond sets another covariance (C27_false_drift) and is forgotten (C27_drift_forgotten). Proved for the other three setters, in any order and interleaved with any use. One-dimensional estimator: C27_unidim_partial (all five matrices after any history without the two broken setters), C27_unidim_false."
  },
  {
   "property": "C28",
   "status": "partial",
   "theorems": [
    "StateObs.Lipm.C28_partial",
    "StateObs.Lipm.C28_local_bias_partial",
    "StateObs.Lipm.C28_auto",
    "StateObs.Lipm.C28_false",
    "StateObs.Unidim.C28_unidim_update_defined",
    "StateObs.Unidim.C28_unidim",
    "StateObs.Unidim.C28_unidim_predict",
    "StateObs.Unidim.C28_unidim_batch"
   ],
   "note": "False right after construction or reset when setInputs is called twice without update (C28_false). Proved for every use in which earlier data have been processed, all orientations. One-dimensional estimator: full claim (C28_unidim, C28_unidim_predict, C28_unidim_batch)."
  },
  {
   "property": "C29",
   "status": "proved",
   "theorems": [
    "StateObs.Lipm.C29_constructor",
    "StateObs.Lipm.C29_reset",
    "StateObs.Unidim.C29_unidim_constructor",
    "StateObs.Unidim.C29_unidim_reset"
   ],
   "note": "Constructor for all parameters; reset after any history. Also for the one-dimensional estimator."
  },
  {
   "property": "C30",
   "status": "proved",
   "theorems": [
    "StateObs.Lipm.C30_translation",
    "StateObs.Unidim.C30_unidim"
   ],
   "note": "All histories of all methods, all translations. Also for the one-dimensional estimator (C30_unidim)."
  },
  {
   "property": "C31",
   "status": "proved",
   "theorems": [
    "StateObs.Tilt.C31_no_division_by_zero",
    "StateObs.Tilt.C31_unit"
   ],
   "note": "Every step of every run leaves a unit tilt, and no step divides by zero."
  },
  {
   "property": "C32",
   "status": "partial",
   "theorems": [
    "StateObs.Tilt.C32_one_at_a_time",
    "StateObs.Tilt.C32_partial",
    "StateObs.Tilt.C32_false",
    "StateObs.Tilt.C32_negation"
   ],
   "note": "Measurements given one at a time: proved. Two stored measurements before an estimation: proved. Three or more stored: the run stops on an assertion (C32_false), so the claim as stated is refuted (C32_negation)."
  },
  {
   "property": "C33",
   "status": "proved",
   "theorems": [
    "StateObs.Tilt.C33_exact",
    "StateObs.Tilt.C33_step",
    "StateObs.Tilt.C33_velocity",
    "StateObs.Tilt.C33_static"
   ],
   "note": "Exact tracking for consistent noise-free measurements, per step and in the limit forms stated in the theorems."
  },
  {
   "property": "C34",
   "status": "proved",
   "theorems": [
    "StateObs.Kine.C34_rotation",
    "StateObs.Kine.C34_exp",
    "StateObs.Kine.C34_geometry"
   ],
   "note": "For every vector: rotation matrix, unit quaternion, same rotation, inverse by negation; exponential above the threshold 1e-16, identity below."
  },
  {
   "property": "C35",
   "status": "proved",
   "theorems": [
    "StateObs.Kine.C35_vector",
    "StateObs.Kine.C35_vector_small",
    "StateObs.Kine.C35_quaternion",
    "StateObs.Kine.C35_log",
    "StateObs.Kine.C35_matrix",
    "StateObs.Kine.C35_vector_matrix"
   ],
   "note": "Both directions, for quaternions and matrices, with the threshold 1e-16 made explicit; the logarithm statement holds without threshold."
  },
  {
   "property": "C36",
   "status": "proved",
   "theorems": [
    "StateObs.Kine.C36_product",
    "StateObs.Kine.C36_angles",
    "StateObs.Kine.C36_matrix"
   ],
   "note": "Product of elementary rotations; angles recovered on the stated ranges; conversely every rotation with |R20| < 1 is rebuilt."
  },
  {
   "property": "C37",
   "status": "proved",
   "theorems": [
    "StateObs.Kine.C37_skew"
   ],
   "note": ""
  },
  {
   "property": "C38",
   "status": "proved",
   "theorems": [
    "StateObs.Kine.C38_rotation",
    "StateObs.Kine.C38_equal",
    "StateObs.Kine.C38_throws"
   ],
   "note": "Exact unit vectors; rotation, mapping and fixed normal outside the near-equal and near-opposite cases, identity in the first, exception exactly in the second."
  },
  {
   "property": "C39",
   "status": "proved",
   "theorems": [
    "StateObs.Kine.C39_tilt",
    "StateObs.Kine.C39_optimal",
    "StateObs.Kine.C39_throws",
    "StateObs.Kine.C39_self",
    "StateObs.Kine.C39_agnostic",
    "StateObs.Kine.C39_agnostic_self"
   ],
   "note": "Rotation, tilt, yaw direction, optimality among rotations with that tilt, exception exactly in the singular set, idempotence. Axis-agnostic version: exact when the two tilts coincide or differ by more than epsilon1."
  },
  {
   "property": "C40",
   "status": "proved",
   "theorems": [
    "StateObs.Kine.C40_pure",
    "StateObs.Kine.C40_add",
    "StateObs.Kine.C40_add_agnostic",
    "StateObs.Kine.C40_agnostic_meaning",
    "StateObs.Kine.C40_angle"
   ],
   "note": "Pure yaw for all three functions, additivity modulo a turn (for the plain version when the x axis is not mapped to the vertical), meaning of the agnostic yaw, rotationMatrixToAngle."
  },
  {
   "property": "C41",
   "status": "partial",
   "theorems": [
    "StateObs.Kine.C41_partial",
    "StateObs.Kine.C41_false",
    "StateObs.Kine.C41_negation"
   ],
   "note": "Rotations are accepted, and reflections rejected unless their last column is within the precision of +-e_y; exchanging y and z is a reflection that passes (C41_false), so the claim as stated is refuted."
  },
  {
   "property": "C42",
   "status": "partial",
   "theorems": [
    "StateObs.Kine.C42_partial",
    "StateObs.Kine.C42_matrix",
    "StateObs.Kine.C42_false",
    "StateObs.Kine.C42_negation"
   ],
   "note": "Proved for norms up to pi (2^33 - 1); beyond, the conversion to unsigned overflows (C42_false)."
  },
  {
   "property": "C43",
   "status": "proved",
   "theorems": [
    "StateObs.Kine.C43_homogeneous",
    "StateObs.Kine.C43_vector6",
    "StateObs.Kine.C43_vector6_back",
    "StateObs.Kine.C43_state_involution",
    "StateObs.Kine.C43_state_pose",
    "StateObs.Kine.C43_state_derivatives"
   ],
   "note": "Homogeneous matrices, pose vectors, involution, identity pose and derivatives along trajectories."
  },
  {
   "property": "C44",
   "status": "proved",
   "theorems": [
    "StateObs.Kine.C44_position",
    "StateObs.Kine.C44_motion",
    "StateObs.Kine.C44_stationary"
   ],
   "note": "Position, velocity and acceleration, pointwise and along any motion."
  },
  {
   "property": "C45",
   "status": "partial",
   "theorems": [
    "StateObs.Mltp.C45_stateSum",
    "StateObs.Mltp.C45_increment",
    "StateObs.Mltp.C45_measurement",
    "StateObs.Mltp.C45_rtv_partial",
    "StateObs.Mltp.C45_rtv_false"
   ],
   "note": "The measurement Jacobian is the derivative of the measurement along every curve of states (C45_measurement), whatever the history; stateSum is the exact increment above 1e-16. derivateRtvMultiplicative has the opposite sign (C45_rtv_false, C45_rtv_partial)."
  },
  {
   "property": "C46",
   "status": "proved",
   "theorems": [
    "StateObs.Kine.C46_refines",
    "StateObs.Kine.C46_history",
    "StateObs.Kine.C46_coherent"
   ],
   "note": "Refinement: every sequence of operations on a store of Orientation objects (all the constructors, assignments, conversions, products, inverse, integration, differentiation) returns what the same operations on rotation matrices return, and asserts exactly when the reference is unset. setMatrix/setQuaternion (raw mutable references) are not part of the operation alphabet."
  },
  {
   "property": "C47",
   "status": "proved",
   "theorems": [
    "StateObs.Kine.C47_integrate_differentiate",
    "StateObs.Kine.C47_differentiate_integrate"
   ],
   "note": "Both directions, for increments of norm zero or in (1e-16, pi)."
  },
  {
   "property": "C48",
   "status": "proved",
   "theorems": [
    "StateObs.Kine.Kin.C48_product",
    "StateObs.Kine.Kin.C48_inverse",
    "StateObs.Kine.Kin.C48_associative",
    "StateObs.Kine.Kin.C48_identity",
    "StateObs.Kine.Kin.C48_inverse_product"
   ],
   "note": "Also proved as composition of moving frames: the fields of the product and of the inverse are the derivatives of the composed (inverted) rigid motion."
  },
  {
   "property": "C49",
   "status": "proved",
   "theorems": [
    "StateObs.Kine.Kin.C49_product_flags",
    "StateObs.Kine.Kin.C49_inverse_flags",
    "StateObs.Kine.Kin.C49_product_values",
    "StateObs.Kine.Kin.C49_inverse_values"
   ],
   "note": "The product asserts exactly when the first operand has no orientation or the second has neither position nor orientation."
  },
  {
   "property": "C50",
   "status": "proved",
   "theorems": [
    "StateObs.Kine.Kin.C50_setZero",
    "StateObs.Kine.Kin.C50_round_trip",
    "StateObs.Kine.Kin.C50_set_fields",
    "StateObs.Kine.Kin.C50_layout",
    "StateObs.Kine.Kin.C50_vector_back"
   ],
   "note": "Both directions, layout, lengths and assertions."
  },
  {
   "property": "C51",
   "status": "proved",
   "theorems": [
    "StateObs.Kine.Kin.C51_flags",
    "StateObs.Kine.Kin.C51_linear_motion",
    "StateObs.Kine.Kin.C51_linear_steps",
    "StateObs.Kine.Kin.C51_angular_motion",
    "StateObs.Kine.Kin.C51_angular_steps"
   ],
   "note": "Angular part under a constant axis and with rotation increments that are zero or longer than 1e-16 (shorter ones are neglected by the code). Also: the integrated curves have the expected derivatives."
  },
  {
   "property": "C52",
   "status": "partial",
   "theorems": [
    "StateObs.Kine.Kin.C52_defined",
    "StateObs.Kine.Kin.C52_flags_partial",
    "StateObs.Kine.Kin.C52_flags_linear",
    "StateObs.Kine.Kin.C52_provided",
    "StateObs.Kine.Kin.C52_nothing_new_partial",
    "StateObs.Kine.Kin.C52_velocity_from_positions",
    "StateObs.Kine.Kin.C52_acceleration_from_velocities",
    "StateObs.Kine.Kin.C52_acceleration_from_position_velocity",
    "StateObs.Kine.Kin.C52_acceleration_from_positions",
    "StateObs.Kine.Kin.C52_position",
    "StateObs.Kine.Kin.C52_kept",
    "StateObs.Kine.Kin.C52_angular_velocity_from_orientations",
    "StateObs.Kine.Kin.C52_angular_acceleration_from_velocities",
    "StateObs.Kine.Kin.C52_orientation",
    "StateObs.Kine.Kin.C52_angular_kept",
    "StateObs.Kine.Kin.C52_flags_false",
    "StateObs.Kine.Kin.C52_nothing_new_false",
    "StateObs.Kine.Kin.C52_acceleration_false",
    "StateObs.Kine.Kin.C52_angular_acceleration_false"
   ],
   "note": "Assertion condition, copies, agreement with integrate, all the reconstructions. False as stated: C52_flags_false (angular acceleration stays unset), C52_nothing_new_false (2 a dt^2 instead of a dt^2/2), C52_acceleration_false (known velocity neglected), C52_angular_acceleration_false (opposite sign)."
  },
  {
   "property": "C53",
   "status": "proved",
   "theorems": [
    "StateObs.KO.C53_constructible",
    "StateObs.KO.C53_disjoint",
    "StateObs.KO.C53_cover",
    "StateObs.KO.C53_defined"
   ],
   "note": "In every reachable state the documented segments of the state vector (and of the tangent vector) are pairwise disjoint and cover the vector; index functions are defined for every set contact and every IMU number in range. The constructor succeeds exactly when at least one IMU is allowed (C53_constructible)."
  },
  {
   "property": "C54",
   "status": "partial",
   "theorems": [
    "StateObs.KO.C54_stateSetters",
    "StateObs.KO.C54_stateResets",
    "StateObs.KO.C54_process",
    "StateObs.KO.C54_psd",
    "StateObs.KO.C54_resetAll",
    "StateObs.KO.C54_reachable_psd",
    "StateObs.KO.C54_setGyroBias_false",
    "StateObs.KO.C54_setStateUnmodeledWrench_false",
    "StateObs.KO.C54_setStateKinematics_false",
    "StateObs.KO.C54_setStateKinematics_partial"
   ],
   "note": "In every state reachable with positive semidefinite arguments the state covariance and the process covariance are positive semidefinite (C54_reachable_psd); every dedicated setter and every reset function replaces exactly the rows and columns of its own tangent segment. False for setGyroBias (block shifted by one), setStateUnmodeledWrench (out of range without contacts) and setStateKinematics with set contacts when asked to reset the covariance (state index used in the tangent matrix)."
  },
  {
   "property": "C55",
   "status": "partial",
   "theorems": [
    "StateObs.KO.C55_list_partial",
    "StateObs.KO.C55_addContact",
    "StateObs.KO.C55_addContact_ok",
    "StateObs.KO.C55_removeContact_false",
    "StateObs.KO.C55_getNumberOfContacts_false",
    "StateObs.KO.C55_clearContacts_false"
   ],
   "note": "addContact returns a free slot, the smallest free one when numbered automatically, adds exactly it, and succeeds whenever a slot is free; getListOfContacts is the list of added and not removed contacts for every history without clearContacts. False: removeContact of a set contact always fails its assertion, getNumberOfContacts is the maximum number of contacts, and after clearContacts no contact can be added any more."
  },
  {
   "property": "C56",
   "status": "partial",
   "theorems": [
    "StateObs.KO.C56_measurement_partial",
    "StateObs.KO.C56_pose_false",
    "StateObs.KO.C56_frozen_false",
    "StateObs.KO.C56_wrench_false",
    "StateObs.KO.C56_room_partial",
    "StateObs.KO.C56_example"
   ],
   "note": "False with an absolute pose sensor (update() never returns, C56_pose_false) and with a wrench sensor (at most one estimation, C56_frozen_false, C56_wrench_false). Proved: whenever update() returns with new data the measurement vector has exactly the room of what is written into it; in an iteration that begins without a wrench sensor the announced size is exact."
  },
  {
   "property": "C57",
   "status": "partial",
   "theorems": [
    "StateObs.KO.C57_setIMU_partial",
    "StateObs.KO.C57_false"
   ],
   "note": "With an explicit number the data is stored in that IMU, which must not have been used in this iteration, and no other IMU changes. False for automatic numbering: setIMU with a negative number never returns (C57_false)."
  },
  {
   "property": "C58",
   "status": "proved",
   "theorems": [
    "StateObs.KO.C58_clock",
    "StateObs.KO.C58_update",
    "StateObs.KO.C58_other",
    "StateObs.KO.C58_iterations"
   ],
   "note": "For every history: data time is the estimation time or one ahead, update moves the estimation time to the data time and a second update changes nothing, data-bringing calls move the data time to one ahead, other calls leave the clock."
  },
  {
   "property": "C59",
   "status": "partial",
   "theorems": [
    "StateObs.KO.C59_partial",
    "StateObs.KO.C59_setWithGyroBias_false",
    "StateObs.KO.C59_setWithGyroBias_other_false"
   ],
   "note": "setWithUnmodeledWrench and setWithAccelerationEstimation set their own option only. False for setWithGyroBias: it changes the acceleration option and the gyro bias option stays on in every reachable state."
  },
  {
   "property": "C60",
   "status": "proved",
   "theorems": [
    "StateObs.Mltp.C60_imu_back",
    "StateObs.Mltp.C60_imu",
    "StateObs.Mltp.C60_imu_small",
    "StateObs.Mltp.C60_imu_zero",
    "StateObs.KO.C60_observer_sum",
    "StateObs.KO.C60_observer_difference",
    "StateObs.KO.C60_observer",
    "StateObs.KO.C60_observer_back",
    "StateObs.KO.C60_observer_zero",
    "StateObs.KO.C60_observer_new",
    "StateObs.KO.C60_observer_new_false",
    "StateObs.KO.C60_observer_example",
    "StateObs.Offline.C60_filter",
    "StateObs.Offline.C60_filter_sizes"
   ],
   "note": "Multiplicative IMU system and kinetics observer (sum, difference, both round trips for each, zero). stateDifference into a new vector is undefined unless all components are in use (C60_observer_new, C60_observer_new_false). The arithmetic that the offline estimation gives to its filter is that of the multiplicative IMU system (C60_filter)."
  },
  {
   "property": "C61",
   "status": "partial",
   "theorems": [
    "StateObs.KO.C61_newton_partial",
    "StateObs.KO.C61_false",
    "StateObs.KO.C61_euler",
    "StateObs.KO.C61_newton_defect"
   ],
   "note": "Euler's equation proved for every robot described by the observer (C61_euler). Newton's law is false: the centrifugal term is counted twice (kinetics-observer.cpp 1368); C61_newton_defect gives the exact error for every state, C61_newton_partial the states where the law holds, C61_false a reachable witness."
  },
  {
   "property": "C62",
   "status": "proved",
   "theorems": [
    "StateObs.Simulator.C62_functor",
    "StateObs.Simulator.C62_getInput",
    "StateObs.Simulator.C62_simulateDynamicsTo",
    "StateObs.Simulator.C62_returns"
   ],
   "note": "For all functors, inputs, horizons: whenever simulateDynamicsTo returns, states and measurements follow the dynamics with the input in force, nothing earlier changes; it returns under the natural hypotheses; getInput is the entry with the greatest time not after i, for every history; C62_functor: another functor given during the simulation changes only the steps that follow."
  },
  {
   "property": "C63",
   "status": "partial",
   "theorems": [
    "StateObs.Simulator.C63_getState_partial",
    "StateObs.Simulator.C63_getState_false",
    "StateObs.Simulator.C63_getMeasurement_partial",
    "StateObs.Simulator.C63_getMeasurement_false",
    "StateObs.Simulator.C63_first_measurement_false",
    "StateObs.Simulator.C63_stale_false",
    "StateObs.Simulator.C63_arrays_partial"
   ],
   "note": "Already computed values are returned unchanged (first measurement excepted). False: getState and getMeasurement beyond the horizon never return, for every state, dynamics and index; the first measurement cannot be read; measurements of discarded states are returned."
  },
  {
   "property": "C64",
   "status": "partial",
   "theorems": [
    "StateObs.Simulator.C64_setState",
    "StateObs.Simulator.C64_setInput_ignored",
    "StateObs.Simulator.C64_setInput_false",
    "StateObs.Simulator.C64_setInput_partial"
   ],
   "note": "setState: exact acceptance condition and effect. setInput: false, for every history a second input for the same time is ignored; holds for times without input."
  },
  {
   "property": "C65",
   "status": "partial",
   "theorems": [
    "StateObs.Sensor.C65_same",
    "StateObs.Sensor.C65_succeeds_partial",
    "StateObs.Sensor.C65_sizes",
    "StateObs.Sensor.C65_succeeds_false"
   ],
   "note": "Equality of repeated calls is proved for every sensor and any interleaving; the call succeeds except with a noise and appended inputs, where an assertion fails (C65_succeeds_false)."
  },
  {
   "property": "C66",
   "status": "partial",
   "theorems": [
    "StateObs.Sensor.C66_imu",
    "StateObs.Sensor.C66_magnetometer_partial",
    "StateObs.Sensor.C66_magnetometer_false",
    "StateObs.Sensor.C66_modes",
    "StateObs.Sensor.C66_matrix"
   ],
   "note": "Accelerometer and gyrometer proved. The magnetometer uses the field of the call, not the field given to the constructor (C66_magnetometer_false); the rest is C66_magnetometer_partial."
  },
  {
   "property": "C67",
   "status": "proved",
   "theorems": [
    "StateObs.Noise.C67_gaussian",
    "StateObs.Noise.C67_factor",
    "StateObs.Noise.C67_moments",
    "StateObs.Noise.C67_semidefinite_false"
   ],
   "note": "Factor, moments and law (C67_gaussian), any dimension. The header also promises singular covariances: false (C67_semidefinite_false)."
  },
  {
   "property": "C68",
   "status": "partial",
   "theorems": [
    "StateObs.Logger.C68_partial",
    "StateObs.Logger.C68_push_address_false",
    "StateObs.Logger.C68_record_types",
    "StateObs.Logger.C68_updateAddress_loses",
    "StateObs.Logger.C68_updateAddress_same",
    "StateObs.Logger.C68_updateAddress_type",
    "StateObs.Logger.C68_false"
   ],
   "note": "For every history without updateAddress the record is exactly the values at the pushes, with indexing. False: push(address) never returns, updateAddress loses the recorded values in every state, loses tracking for the same address, accepts types that cannot be logged."
  },
  {
   "property": "C69",
   "status": "proved",
   "theorems": [
    "StateObs.Misc.C69_clampScalar",
    "StateObs.Misc.C69_derivate",
    "StateObs.Misc.C69_clampLimit",
    "StateObs.Misc.C69_signum",
    "StateObs.Misc.C69_normalizedLazy",
    "StateObs.Misc.C69_checkIfNormalized",
    "StateObs.Misc.C69_sqrt_ends",
    "StateObs.Misc.C69_sqrt_converges",
    "StateObs.Misc.C69_timeDiff"
   ],
   "note": "clampScalar nearest point, signum, checkIfNormalized, normalizedLazy for non-zero vectors, the square root recursion: result correct when it ends, iterates converge to the root. Over the reals. Difference of two times: C69_timeDiff."
  },
  {
   "property": "C70",
   "status": "partial",
   "theorems": [
    "StateObs.Misc.C70_away",
    "StateObs.Misc.C70_false",
    "StateObs.Misc.C70_partial",
    "StateObs.Misc.C70_at_zero",
    "StateObs.Misc.C70_opposite",
    "StateObs.Misc.C70_vector_partial",
    "StateObs.Misc.C70_vector_first",
    "StateObs.Misc.C70_vector_false"
   ],
   "note": "False for all negative gains and all non-zero positions: the acceleration at rest points away from zero (C70_away); the returned value is exactly the opposite of the converging control (C70_opposite); the vector version never writes the first component. Holds with kv positive and for the other components."
  },
  {
   "property": "C71",
   "status": "partial",
   "theorems": [
    "StateObs.Flex.C71_covariance",
    "StateObs.Flex.C71_process",
    "StateObs.Flex.C71_psd",
    "StateObs.Flex.C71_setters"
   ],
   "note": "Fixed contacts: the covariance given to the filter is exactly the requested one after every call sequence, setters always succeed, covariances stay PSD/PD. Model-based estimator: see C95 (the saturation fails for the second contact and the torques)."
  },
  {
   "property": "C72",
   "status": "proved",
   "theorems": [
    "StateObs.Imu.C72_transparent",
    "StateObs.Imu.C72_conversion"
   ],
   "note": "Four classes, any history of public calls, with and without noise."
  },
  {
   "property": "C73",
   "status": "proved",
   "theorems": [
    "StateObs.Imu.C73_contacts",
    "StateObs.Imu.C73_rotation_about_contact"
   ],
   "note": "Both fixed-contact classes, any history, any number of contacts."
  },
  {
   "property": "C74",
   "status": "proved",
   "theorems": [
    "StateObs.Mltp.C74_state",
    "StateObs.Mltp.C74_history"
   ],
   "note": ""
  },
  {
   "property": "C75",
   "status": "proved",
   "theorems": [
    "StateObs.Kine.C75_quaternion",
    "StateObs.Kine.C75_integrate",
    "StateObs.Kine.C75_vector",
    "StateObs.Kine.C75_homogeneous"
   ],
   "note": ""
  },
  {
   "property": "C76",
   "status": "partial",
   "theorems": [
    "StateObs.KO.C76_false",
    "StateObs.KO.C76_complete_partial",
    "StateObs.KO.C76_first_partial",
    "StateObs.KO.C76_example"
   ],
   "note": "False: after the first call for an IMU, a call without a velocity or the linear acceleration never returns (division by an elapsed time of zero). Proved: the first call, and every call with complete kinematics, return and store what was given."
  },
  {
   "property": "C77",
   "status": "partial",
   "theorems": [
    "StateObs.Simulator.C77_partial",
    "StateObs.Simulator.C77_next_false",
    "StateObs.Simulator.C77_false"
   ],
   "note": "Holds when the measurements join the index. False when the next state is set after a simulation step (for every such state)."
  },
  {
   "property": "C78",
   "status": "proved",
   "theorems": [
    "StateObs.Logger.C78_save",
    "StateObs.Logger.C78_save_returns",
    "StateObs.Logger.C78_path",
    "StateObs.Logger.C78_shared_file"
   ],
   "note": "For every state of a history; file names shared by two variables are excluded (C78_shared_file shows what happens)."
  },
  {
   "property": "C79",
   "status": "partial",
   "theorems": [
    "StateObs.Misc.C79_partial",
    "StateObs.Misc.C79_zero",
    "StateObs.Misc.C79_false",
    "StateObs.Misc.C79_meaning"
   ],
   "note": "False at zero: isApprox(0,0) is false for every precision. Holds elsewhere; symmetric, scale invariant."
  },
  {
   "property": "C80",
   "status": "partial",
   "theorems": [
    "StateObs.Flex.C80_ignored",
    "StateObs.Flex.C80_false"
   ],
   "note": "False: setSamplingPeriod only writes an unused member (C80_false); removing the calls changes nothing (C80_ignored)."
  },
  {
   "property": "C81",
   "status": "partial",
   "theorems": [
    "StateObs.Flex.C81_partial",
    "StateObs.Flex.C81_accepted",
    "StateObs.Flex.C81_unseen_false",
    "StateObs.Flex.C81_negation",
    "StateObs.Flex.C81_homogeneous_false"
   ],
   "note": "Vectors are accepted and become the state of the filter; homogeneous matrices always fail an assertion; the vector returned ignores the guess until a measurement arrives."
  },
  {
   "property": "C82",
   "status": "proved",
   "theorems": [
    "StateObs.Flex.C82_estimation"
   ],
   "note": "Exact computation of the step for every reachable estimator; undefined behaviour for orientation vectors longer than pi(2^33-1), see C42."
  },
  {
   "property": "C83",
   "status": "partial",
   "theorems": [
    "StateObs.Flex.C83_partial",
    "StateObs.Flex.C83_stale",
    "StateObs.Flex.C83_false"
   ],
   "note": "Holds between the input and the measurement; false when the number of contacts changes afterwards: the old prediction is kept and an assertion fails."
  },
  {
   "property": "C84",
   "status": "partial",
   "theorems": [
    "StateObs.KO.C84_automatic",
    "StateObs.KO.C84_returns",
    "StateObs.KO.C84_example",
    "StateObs.KO.C84_estimates"
   ],
   "note": "Contacts without wrench sensor only (C56: an observer with a wrench sensor makes at most one estimation), explicit numbers for the IMUs (C57: the automatic ones never return); the numbers of the contacts may be automatic (C84_automatic); the state is given by setStateVector or setStateKinematics, and may be changed by setGyroBias and setStateUnmodeledWrench; the list of the calls is KO/ClientSpec.lean."
  },
  {
   "property": "C85",
   "status": "proved",
   "theorems": [
    "StateObs.KO.C85_step",
    "StateObs.KO.C85_example"
   ],
   "note": "For every reachable state with positive semidefinite covariances in which update() returns; when it returns is C84 and C56."
  },
  {
   "property": "C86",
   "status": "partial",
   "theorems": [
    "StateObs.Pendulum.C86_partial",
    "StateObs.Pendulum.C86_false",
    "StateObs.Pendulum.C86_elasticity_false",
    "StateObs.Pendulum.C86_example"
   ],
   "note": "False in general (C86_false: Coriolis term with the height instead of the abscissa; C86_elasticity_false: uninitialised elasticity). Proved for the integration and, when the abscissa or the angle does not move or the abscissa equals the height, for the angular momentum."
  },
  {
   "property": "C87",
   "status": "partial",
   "theorems": [
    "StateObs.Elastic.C87_return",
    "StateObs.Elastic.C87_three_contacts_false",
    "StateObs.Elastic.C87_example",
    "StateObs.Elastic.C87_newton",
    "StateObs.Elastic.C87_euler"
   ],
   "note": "For every reachable system and every motion; the call returns with at most two contacts (C87_return). With three or more elastic contacts it fails an assertion (C87_three_contacts_false)."
  },
  {
   "property": "C88",
   "status": "partial",
   "theorems": [
    "StateObs.Elastic.C88_forces_partial",
    "StateObs.Elastic.C88_kinematics_partial",
    "StateObs.Elastic.C88_agree_partial",
    "StateObs.Elastic.C88_rates_partial",
    "StateObs.Elastic.C88_mass_false",
    "StateObs.Elastic.C88_velocity_false",
    "StateObs.Elastic.C88_example"
   ],
   "note": "The code uses the mass 56.8 whatever the mass given (C88_mass_false) and the linear velocity as the angular one (C88_velocity_false); proved for a robot of that mass, and for the kinematics when both velocities are equal."
  },
  {
   "property": "C89",
   "status": "partial",
   "theorems": [
    "StateObs.Elastic.C89_spring",
    "StateObs.Elastic.C89_isotropic",
    "StateObs.Elastic.C89_passive",
    "StateObs.Elastic.C89_ropes",
    "StateObs.Elastic.C89_rest",
    "StateObs.Elastic.C89_return",
    "StateObs.Elastic.C89_no_model",
    "StateObs.Elastic.C89_three_contacts_false",
    "StateObs.Elastic.C89_rope_moment_false",
    "StateObs.Elastic.C89_example",
    "StateObs.Elastic.C89_settings",
    "StateObs.Elastic.C89_settings_example"
   ],
   "note": "Spring, isotropy, dissipation, ropes, rest and return proved for at most two contacts; false for three (C89_three_contacts_false), and the moment of a rope is not counted (C89_rope_moment_false)."
  },
  {
   "property": "C90",
   "status": "partial",
   "theorems": [
    "StateObs.Elastic.C90_motion",
    "StateObs.Elastic.C90_forces",
    "StateObs.Elastic.C90_rest",
    "StateObs.Elastic.C90_return",
    "StateObs.Elastic.C90_no_model",
    "StateObs.Elastic.C90_noise_false",
    "StateObs.Elastic.C90_noise_empty_false",
    "StateObs.Elastic.C90_example"
   ],
   "note": "Proved without process noise; with one the result is a stale or empty vector (C90_noise_false, C90_noise_empty_false)."
  },
  {
   "property": "C91",
   "status": "partial",
   "theorems": [
    "StateObs.Elastic.C91_imu",
    "StateObs.Elastic.C91_size",
    "StateObs.Elastic.C91_forces",
    "StateObs.Elastic.C91_absolute",
    "StateObs.Elastic.C91_return",
    "StateObs.Elastic.C91_first_false",
    "StateObs.Elastic.C91_noise",
    "StateObs.Elastic.C91_noise_false",
    "StateObs.Elastic.C91_four_contacts_false",
    "StateObs.Elastic.C91_third_contact_false",
    "StateObs.Elastic.C91_example"
   ],
   "note": "IMU law, sizes, forces, drifted pose and return proved without noise; false before a first state computation (C91_first_false), with noise and forces or pose (C91_noise_false), for the third contact (C91_third_contact_false) and for four or more (C91_four_contacts_false)."
  },
  {
   "property": "C92",
   "status": "partial",
   "theorems": [
    "StateObs.Elastic.C92_state",
    "StateObs.Elastic.C92_state_again",
    "StateObs.Elastic.C92_state_return",
    "StateObs.Elastic.C92_state_exact",
    "StateObs.Elastic.C92_unmodeled_false",
    "StateObs.Elastic.C92_measure",
    "StateObs.Elastic.C92_measure_again",
    "StateObs.Elastic.C92_measure_return",
    "StateObs.Elastic.C92_state_example",
    "StateObs.Elastic.C92_measure_example"
   ],
   "note": "Every column is the finite difference at the perturbed state, without noise, and asking again gives the same; inactive columns exact for bias and drift, false for the unmodeled forces (C92_unmodeled_false)."
  },
  {
   "property": "C93",
   "status": "partial",
   "theorems": [
    "StateObs.ModelFlex.C93_size",
    "StateObs.ModelFlex.C93_whole",
    "StateObs.ModelFlex.C93_imu_partial",
    "StateObs.ModelFlex.C93_imu",
    "StateObs.ModelFlex.C93_setVariance_false",
    "StateObs.ModelFlex.C93_reset_partial",
    "StateObs.ModelFlex.C93_default_false",
    "StateObs.ModelFlex.C93_contacts_false",
    "StateObs.ModelFlex.C93_pose_false",
    "StateObs.ModelFlex.C93_matrix3_false"
   ],
   "note": "Size and use of the matrix, whole and IMU covariance, reset proved; false: variances chosen later have no effect (C93_setVariance_false), uninitialised coefficients (C93_default_false, C93_contacts_false, C93_pose_false), 3x3 variance (C93_matrix3_false)."
  },
  {
   "property": "C94",
   "status": "partial",
   "theorems": [
    "StateObs.ModelFlex.C94_size",
    "StateObs.ModelFlex.C94_reset",
    "StateObs.ModelFlex.C94_set",
    "StateObs.ModelFlex.C94_unmodeled",
    "StateObs.ModelFlex.C94_options_false"
   ],
   "note": "Sizes, reset and given covariances proved; enabling an option alone is proved to have no effect on its estimate, in every execution (C94_options_false)."
  },
  {
   "property": "C95",
   "status": "partial",
   "theorems": [
    "StateObs.ModelFlex.C95_force",
    "StateObs.ModelFlex.C95_second_false",
    "StateObs.ModelFlex.C95_torque_false"
   ],
   "note": "Proved for the force of the first contact; the force of the second contact is bounded by the torques limit (C95_second_false) and the torques are not limited (C95_torque_false)."
  },
  {
   "property": "C97",
   "status": "partial",
   "theorems": [
    "StateObs.ModelFlex.C97_off",
    "StateObs.ModelFlex.C97_on",
    "StateObs.ModelFlex.C97_momenta",
    "StateObs.ModelFlex.C97_accelerations_false"
   ],
   "note": "Proved for the vector, the momenta and the restart; the accelerations fail an assertion (C97_accelerations_false)."
  },
  {
   "property": "C98",
   "status": "partial",
   "theorems": [
    "StateObs.ModelFlex.C98_guess",
    "StateObs.ModelFlex.C98_pose",
    "StateObs.ModelFlex.C98_matrix_false",
    "StateObs.ModelFlex.C98_return_false",
    "StateObs.ModelFlex.C98_bias_false",
    "StateObs.ModelFlex.C98_stale_false",
    "StateObs.ModelFlex.C98_forces_partial",
    "StateObs.ModelFlex.C98_forces_false"
   ],
   "note": "Effect on the filter proved for state and pose vectors; false for homogeneous matrices, the returned vector, the bias guess after a guess, a guess after getPrediction, and the forces of three contacts or more."
  },
  {
   "property": "C96",
   "status": "partial",
   "theorems": [
    "StateObs.ModelFlex.C96_covariance",
    "StateObs.ModelFlex.C96_information",
    "StateObs.ModelFlex.C96_dx_false",
    "StateObs.ModelFlex.C96_example",
    "StateObs.ModelFlex.C96_step",
    "StateObs.ModelFlex.C96_return"
   ],
   "note": "Proved for executions that do not ask for predictions in between (those reuse cached predictions, C98_stale_false); the steps chosen by the client have no effect (C96_dx_false). The call returns unless the corrected orientation is larger than what C42 allows."
  },
  {
   "property": "C99",
   "status": "partial",
   "theorems": [
    "StateObs.ModelFlex.C99_observation",
    "StateObs.ModelFlex.C99_observation_false",
    "StateObs.ModelFlex.C99_order",
    "StateObs.ModelFlex.C99_order_false",
    "StateObs.ModelFlex.C99_simulated",
    "StateObs.ModelFlex.C99_simulated_false"
   ],
   "note": "Observation matrix and simulated measurement proved; accelerations and momenta depend on the order of evaluation (C99_order_false); on a new estimator two of the calls fail an assertion."
  },
  {
   "property": "C100",
   "status": "partial",
   "theorems": [
    "StateObs.Offline.C100_partial",
    "StateObs.Offline.C100_noInput_partial",
    "StateObs.Offline.C100_false"
   ],
   "note": "Proved with the period 0.005 that the code uses whatever the caller gives (C100_false); undefined behaviour exactly when a corrected orientation is beyond what C42 allows."
  },
  {
   "property": "C101",
   "status": "proved",
   "theorems": [
    "StateObs.Offline.C101_run",
    "StateObs.Offline.C101_noInput"
   ],
   "note": "For positive semidefinite P and Q and positive definite R."
  },
  {
   "property": "C102",
   "status": "proved",
   "theorems": [
    "StateObs.Offline.C102_run",
    "StateObs.Offline.C102_noInput",
    "StateObs.Offline.C102_unit"
   ],
   "note": "For positive semidefinite P and Q and positive definite R. The state Jacobian is the derivative when the rotation of one period is above 1e-16; below, it counts it as null; nothing is said at exactly 1e-16."
  },
  {
   "property": "C103",
   "status": "proved",
   "theorems": [
    "StateObs.KO.C103_example",
    "StateObs.KO.C103_setGyroBias",
    "StateObs.KO.C103_getUnmodeledWrench",
    "StateObs.KO.C103_setStateUnmodeledWrench",
    "StateObs.KO.C103_setStateVector",
    "StateObs.KO.C103_setStateKinematics",
    "StateObs.KO.C103_addContact",
    "StateObs.KO.C103_getContactWrench",
    "StateObs.KO.C103_getContactPosition",
    "StateObs.KO.C103_getContactPosition_only",
    "StateObs.KO.C103_others",
    "StateObs.KO.C103_kinematics",
    "StateObs.KO.C103_getKinematicsOf"
   ],
   "note": "Histories where the kinematics given to setStateKinematics are coherent (C46)."
  },
  {
   "property": "C104",
   "status": "partial",
   "theorems": [
    "StateObs.KO.C104_pose_false",
    "StateObs.KO.C104_pose_partial",
    "StateObs.KO.C104_pose_pushed_partial",
    "StateObs.KO.C104_stiffness_false",
    "StateObs.KO.C104_gains_partial",
    "StateObs.KO.C104_pose_example",
    "StateObs.KO.C104_gains_example"
   ],
   "note": "The pose has no effect on the next estimation (C104_pose_false) and the stiffness is ignored without a damping (C104_stiffness_false). Proved: the filter has the pose after any of the state setters, and every other call keeps it; the three other gains."
  },
  {
   "property": "C105",
   "status": "proved",
   "theorems": [
    "StateObs.KO.C105_settings",
    "StateObs.KO.C105_settings_example"
   ],
   "note": "The options of the gyrometer biases and of the accelerations are in C59."
  },
  {
   "property": "C106",
   "status": "partial",
   "theorems": [
    "StateObs.KO.C106_false",
    "StateObs.KO.C106_example",
    "StateObs.KO.C106_returns",
    "StateObs.KO.C106_kinematics",
    "StateObs.KO.C106_kept",
    "StateObs.KO.C106_computed_partial",
    "StateObs.KO.C106_force_partial",
    "StateObs.KO.C106_spring_partial"
   ],
   "note": "The predicted wrench of the contacts is not the one of the spring and damper (C106_false); proved: what is computed instead (C106_computed_partial), the exact condition for the force (C106_force_partial), a case where both agree (C106_spring_partial), and everything else of the statement."
  },
  {
   "property": "C107",
   "status": "proved",
   "theorems": [
    "StateObs.C107_elastic",
    "StateObs.C107_fixed",
    "StateObs.C107_initial"
   ],
   "note": "Rotation vectors shorter than 1e-16 give no rotation, as in C34."
  },
  {
   "property": "C109",
   "status": "partial",
   "theorems": [
    "StateObs.KO.C109_update_false",
    "StateObs.KO.C109_bias_false",
    "StateObs.KO.C109_example",
    "StateObs.KO.C109_update_example"
   ],
   "note": "The statement fails in the code: both theorems prove its negation for every execution in which the covariances given by the client have no terms between these components and the others (the default ones have none). C109_example shows any number of estimations with any rates of the gyrometer."
  },
  {
   "property": "C108",
   "status": "partial",
   "theorems": [
    "StateObs.KO.C108_computed_partial",
    "StateObs.KO.C108_physics",
    "StateObs.KO.C108_returns",
    "StateObs.KO.C108_example",
    "StateObs.KO.C108_false"
   ],
   "note": "The statement fails in the code for the bias of the gyrometers (C108_false). Proved: the whole predicted vector without the bias (C108_computed_partial), its physical meaning (C108_physics), and that the prediction returns (C108_returns). Iterations with an absolute pose are excluded: no estimation with one returns (C56)."
  },
  {
   "property": "C110",
   "status": "partial",
   "theorems": [
    "StateObs.KO.C110_momentum_partial",
    "StateObs.KO.C110_inertia_partial",
    "StateObs.KO.C110_inertiaVector_partial",
    "StateObs.KO.C110_com_partial",
    "StateObs.KO.C110_comVelocity_partial",
    "StateObs.KO.C110_given",
    "StateObs.KO.C110_others",
    "StateObs.KO.C110_first_false",
    "StateObs.KO.C110_constant_false",
    "StateObs.KO.C110_corrected_false",
    "StateObs.KO.C110_example"
   ],
   "note": "The statement fails in the code for the first values (C110_first_false, C110_constant_false) and for a value corrected in the same iteration (C110_corrected_false). Proved in all other cases, for every form of the setters (C110_*_partial), with the derivatives that are given (C110_given) and the frame (C110_others). The inertia given by six numbers supposes that the one given before is symmetric."
  },
  {
   "property": "C111",
   "status": "partial",
   "theorems": [
    "StateObs.Offline.C111_example",
    "StateObs.Offline.C111_run_example",
    "StateObs.Offline.C111_online",
    "StateObs.Offline.C111_returns",
    "StateObs.Offline.C111_times_partial",
    "StateObs.Offline.C111_times_false",
    "StateObs.Offline.C111_run_partial",
    "StateObs.Offline.C111_force_false"
   ],
   "note": "C111_online and C111_returns: equivalence with the online estimator, in full. The times are those of the measurements if the first is not negative (C111_times_partial, C111_times_false). The run of the filter (C111_run_partial) supposes a covariance of the measurement noise for every time, or a constant one without force measurements (C111_force_false)."
  },
  {
   "property": "C112",
   "status": "proved",
   "theorems": [
    "StateObs.Text.C112_sizes",
    "StateObs.Text.C112_matrix",
    "StateObs.Text.C112_again",
    "StateObs.Text.C112_vector",
    "StateObs.Text.C112_vector_size",
    "StateObs.Text.C112_flat",
    "StateObs.Text.C112_unreadable_false",
    "StateObs.Text.C112_example"
   ],
   "note": "For all numbers whose text can be read (in the C++ library: finite numbers); C112_unreadable_false says what happens otherwise. Printing and reading of one number are parameters of the model."
  },
  {
   "property": "C113",
   "status": "proved",
   "theorems": [
    "StateObs.Kine.Kin.C113_defined",
    "StateObs.Kine.Kin.C113_flags",
    "StateObs.Kine.Kin.C113_others",
    "StateObs.Kine.Kin.C113_provided",
    "StateObs.Kine.Kin.C113_pose",
    "StateObs.Kine.Kin.C113_velocity",
    "StateObs.Kine.Kin.C113_velocity_kept",
    "StateObs.Kine.Kin.C113_acceleration",
    "StateObs.Kine.Kin.C113_nothing_new",
    "StateObs.Kine.Kin.C113_velocity_agrees",
    "StateObs.Kine.Kin.C113_acceleration_differs"
   ],
   "note": "C113_acceleration_differs shows that the agreement with update does not extend to the acceleration."
  },
  {
   "property": "C114",
   "status": "partial",
   "theorems": [
    "StateObs.Elastic.C114_stages",
    "StateObs.Elastic.C114_partial",
    "StateObs.Elastic.C114_wrenches",
    "StateObs.Elastic.C114_return",
    "StateObs.Elastic.C114_exact",
    "StateObs.Elastic.C114_false"
   ],
   "note": "C114_statement is false (C114_false: the third stage exchanges forces and moments); C114_stages says what is computed, C114_partial proves the claim where forces and moments are equal or there is no contact."
  },
  {
   "property": "C115",
   "status": "proved",
   "theorems": [
    "StateObs.Noise.C115_unit",
    "StateObs.Noise.C115_quaternion",
    "StateObs.Noise.C115_uniform",
    "StateObs.Noise.C115_unique",
    "StateObs.Noise.C115_scalar",
    "StateObs.Noise.C115_angle",
    "StateObs.Noise.C115_gaussian",
    "StateObs.Noise.C115_zero"
   ],
   "note": "The law of the numbers drawn is a hypothesis; the generators of the standard library are not modelled."
  },
  {
   "property": "C116",
   "status": "proved",
   "theorems": [
    "StateObs.LKF.C116_best",
    "StateObs.LKF.C116_gaussian"
   ],
   "note": "Exact real arithmetic; R positive definite, Q and the initial covariance positive semidefinite."
  },
  {
   "property": "C117",
   "status": "proved",
   "theorems": [
    "StateObs.LKF.C117_converges",
    "StateObs.LKF.C117_forgets",
    "StateObs.LKF.C117_steady"
   ],
   "note": "Exact real arithmetic; Q and R positive definite, initial covariance positive semidefinite."
  },
  {
   "property": "C118",
   "status": "proved",
   "theorems": [
    "StateObs.Lipm.C118_converges",
    "StateObs.Unidim.C118_unidim"
   ],
   "note": "No limit on the bias; without setDcmMeasureErrorStd and setBiasDriftPerSecond before (they do not work, C27); exact real arithmetic."
  },
  {
   "property": "C119",
   "status": "proved",
   "theorems": [
    "StateObs.LKF.C119_conservative",
    "StateObs.LKF.C119_monotone",
    "StateObs.LKF.C119_sensors"
   ],
   "note": "Noises without correlation in time and with each other; exact real arithmetic."
  },
  {
   "property": "C120",
   "status": "proved",
   "theorems": [
    "StateObs.Tilt.C120_defined",
    "StateObs.Tilt.C120_rate",
    "StateObs.Tilt.C120_converges",
    "StateObs.Tilt.C120_almost_global",
    "StateObs.Tilt.C120_gains"
   ],
   "note": "Motion: uniform translation (the estimator integrates by the method of Euler, so it has no exact limit for a rotating sensor); exact real arithmetic."
  },
  {
   "property": "C121",
   "status": "proved",
   "theorems": [
    "StateObs.LKF.C121_coordinates",
    "StateObs.LKF.C121_sequential",
    "StateObs.LKF.C121_order"
   ],
   "note": "Exact real arithmetic."
  },
  {
   "property": "C122",
   "status": "partial",
   "theorems": [
    "StateObs.Lipm.C122_partial",
    "StateObs.Lipm.C122_false"
   ],
   "note": "False with limits on the bias (C122_false): the saturation adds to the world DCM a vector in local coordinates. Proved without limits."
  },
  {
   "property": "C123",
   "status": "proved",
   "theorems": [
    "StateObs.Kine.C123_agree",
    "StateObs.Kine.C123_no_acceleration",
    "StateObs.Kine.C123_kinematics",
    "StateObs.Kine.C123_reversible",
    "StateObs.Kine.C123_motion"
   ],
   "note": "Exact reals; rotations of less than 1e-16 are neglected by the code, and excluded from the exact motion."
  },
  {
   "property": "C124",
   "status": "partial",
   "theorems": [
    "StateObs.LKF.C124_outputs",
    "StateObs.LKF.C124_simulated_partial",
    "StateObs.LKF.C124_false"
   ],
   "note": "False for the last predicted measurement after getSimulatedMeasurement (C124_false): simulateSensor_ stores its result in the same member. All the rest proved."
  },
  {
   "property": "C125",
   "status": "partial",
   "theorems": [
    "StateObs.KO.C125_partial",
    "StateObs.KO.C125_measurement",
    "StateObs.KO.C125_force_partial",
    "StateObs.KO.C125_false"
   ],
   "note": "False for the predicted wrenches of the contacts (C125_false): they depend on the origin of the world. Proved for all other components of the predicted state and for the predicted measurements; the forces for gains that commute with the rotation. The absolute pose sensor, whose measurement is a pose in the world, is not covered."
  },
  {
   "property": "C126",
   "status": "proved",
   "theorems": [
    "StateObs.Tilt.C126_axes"
   ],
   "note": "Exact reals; a null norm before the normalisation is the outcome ub in both runs."
  },
  {
   "property": "C127",
   "status": "proved",
   "theorems": [
    "StateObs.EKF.C127_recursion",
    "StateObs.EKF.C127_differences",
    "StateObs.EKF.C127_coordinates",
    "StateObs.EKF.C127_order"
   ],
   "note": "Exact reals; default state arithmetic; the functor succeeds on all vectors of the sizes of the filter; Q positive semidefinite, R positive definite."
  },
  {
   "property": "C128",
   "status": "proved",
   "theorems": [
    "StateObs.KF.C128_matrices",
    "StateObs.KF.C128_vectors",
    "StateObs.LKF.C128_inputs",
    "StateObs.LKF.C128_neutral",
    "StateObs.KF.C128_values"
   ],
   "note": "Acceptance of all the made matrices and vectors by the setters of a filter in any state, and the run with neutral matrices for the linear filter."
  },
  {
   "property": "C129",
   "status": "partial",
   "theorems": [
    "StateObs.LKF.C129_fails",
    "StateObs.LKF.C129_false",
    "StateObs.LKF.C129_partial"
   ],
   "note": "False (C129_fails for all positive state sizes, C129_false): the filter stops on an assertion because the empty matrix B was not set. Proved once any accepted B is set, with the result."
  },
  {
   "property": "C130",
   "status": "proved",
   "theorems": [
    "StateObs.KO.C130_order",
    "StateObs.KO.C130_history"
   ],
   "note": "For observers in any state. Two calls for the same sensor or input are not exchanged (the last one counts)."
  },
  {
   "property": "C131",
   "status": "partial",
   "theorems": [
    "StateObs.Unidim.C131_unidim_length",
    "StateObs.Unidim.C131_unidim_partial",
    "StateObs.Lipm.C131_length",
    "StateObs.Lipm.C131_partial",
    "StateObs.Lipm.C131_false"
   ],
   "note": "The unit of length for all uses (C131_length, C131_unidim_length), both units for uses without setBiasDriftPerSecond (C131_partial, C131_unidim_partial). With this call the full claim is false (C131_false)."
  },
  {
   "property": "C132",
   "status": "proved",
   "theorems": [
    "StateObs.LKF.C132_superposition",
    "StateObs.LKF.C132_disturbance"
   ],
   "note": "C132_superposition, C132_disturbance."
  },
  {
   "property": "C133",
   "status": "partial",
   "theorems": [
    "StateObs.KO.C133_new",
    "StateObs.KO.C133_ignored",
    "StateObs.KO.C133_partial",
    "StateObs.KO.C133_state_false",
    "StateObs.KO.C133_measurement_false"
   ],
   "note": "The noises have no effect (C133_ignored), so that the claim is false (C133_state_false, C133_measurement_false); it holds without noise (C133_partial)."
  },
  {
   "property": "C134",
   "status": "proved",
   "theorems": [
    "StateObs.Kine.C134_print"
   ],
   "note": "For finite numbers, as far as a number can be read back from its text (C134_print)."
  },
  {
   "property": "C135",
   "status": "partial",
   "theorems": [
    "StateObs.KO.C135_second_partial",
    "StateObs.KO.C135_wrench_partial",
    "StateObs.KO.C135_extract_partial",
    "StateObs.KO.C135_extract_false",
    "StateObs.KO.C135_wrench_false"
   ],
   "note": "The force, and the return of the call, for all situations (C135_wrench_partial). False for the torque (C135_wrench_false) and for extractFromVector (C135_extract_false; C135_extract_partial says what is returned)."
  },
  {
   "property": "C136",
   "status": "partial",
   "theorems": [
    "StateObs.LKF.C136_linear_partial",
    "StateObs.LKF.C136_false",
    "StateObs.EKF.C136_extended_partial",
    "StateObs.Tilt.C136_tilt",
    "StateObs.Obs.C136_observer_partial"
   ],
   "note": "Tilt estimator: completely (C136_tilt). Kalman filters: the estimates of calls that return in both observers (C136_observer_partial, C136_linear_partial, C136_extended_partial), and the same failures without inputs or with a non-zero B. The failures are not the same for a linear filter with B = 0 and no inputs given (C136_false)."
  },
  {
   "property": "C137",
   "status": "partial",
   "theorems": [
    "StateObs.Tools.C137_partial",
    "StateObs.Tools.C137_ground_partial",
    "StateObs.Tools.C137_support",
    "StateObs.Tools.C137_none",
    "StateObs.Tools.C137_short",
    "StateObs.Tools.C137_frame",
    "StateObs.Tools.C137_false",
    "StateObs.Tools.C137_example"
   ],
   "note": "The moment about the point of the plane of height 0 under the result is vertical (C137_partial), so the claim holds for contacts at height 0 (C137_ground_partial); refuted otherwise (C137_false). Support, frame, no contact, short vectors: completely."
  },
  {
   "property": "C138",
   "status": "partial",
   "theorems": [
    "StateObs.Tools.C138_states_partial",
    "StateObs.Tools.C138_states_false",
    "StateObs.Tools.C138_measurements",
    "StateObs.Tools.C138_gap_false",
    "StateObs.Tools.C138_inputs_partial",
    "StateObs.Tools.C138_inputs_short",
    "StateObs.Tools.C138_inputs_long_false",
    "StateObs.Tools.C138_inputs_false",
    "StateObs.Tools.C138_example"
   ],
   "note": "Measurements: completely for logs without gap (C138_measurements); a gap stops the tool (C138_gap_false). States: all files but the one of the bias (C138_states_partial, C138_states_false). Inputs: long logs that always have a contact, short logs without contact (C138_inputs_partial), refuted otherwise (C138_inputs_false, C138_inputs_short, C138_inputs_long_false)."
  },
  {
   "property": "C139",
   "status": "partial",
   "theorems": [
    "StateObs.Tools.C139_partial",
    "StateObs.Tools.C139_gap",
    "StateObs.Tools.C139_short",
    "StateObs.Tools.C139_false",
    "StateObs.Tools.C139_example",
    "StateObs.Tools.C139_trajectory",
    "StateObs.Tools.C139_malformed_false"
   ],
   "note": "Holds when the file of the gyrometer is not shorter than the one of the accelerometer (C139_partial) and when the indexes differ (C139_gap); refuted when it is shorter (C139_short, C139_false). Trajectory file: C139_trajectory, and a malformed file never ends or fails (C139_malformed_false)."
  },
  {
   "property": "C140",
   "status": "partial",
   "theorems": [
    "StateObs.KO.C140_partial",
    "StateObs.KO.C140_sign",
    "StateObs.KO.C140_torque_partial",
    "StateObs.KO.C140_measurement",
    "StateObs.KO.C140_false"
   ],
   "note": "Holds for the predicted kinematics, biases, wrench that is not modelled, rest poses and forces of the contacts (C140_partial, C140_sign) and for the predicted measurements (C140_measurement); the predicted torques of the contacts depend on the sign (C140_torque_partial, C140_false)."
  },
  {
   "property": "C141",
   "status": "proved",
   "theorems": [
    "StateObs.Imu.C141_carried",
    "StateObs.Imu.C141_body",
    "StateObs.Imu.C141_returns"
   ],
   "note": "Four classes, any past calls, without measurement noise. The magnetic field is the constant of the library (C66)."
  },
  {
   "property": "C142",
   "status": "proved",
   "theorems": [
    "StateObs.Imu.C142_step",
    "StateObs.Imu.C142_noise"
   ],
   "note": "Four classes, any past calls. The orientation is equal as a rotation, with a rotation vector not longer than pi."
  },
  {
   "property": "C143",
   "status": "proved",
   "theorems": [
    "StateObs.Imu.C143_stable_iff",
    "StateObs.Imu.C143_sequences"
   ],
   "note": "Position and linear velocity; the orientation of the stable system is not covered."
  },
  {
   "property": "C144",
   "status": "proved",
   "theorems": [
    "StateObs.Mltp.C144_step",
    "StateObs.Mltp.C144_norm",
    "StateObs.Mltp.C144_measurement",
    "StateObs.Mltp.C144_noise"
   ],
   "note": "Any past calls. The orientation is exact from a unit quaternion (rotation during the period below 1e-16 neglected, as in C34)."
  },
  {
   "property": "C145",
   "status": "proved",
   "theorems": [
    "StateObs.Mltp.C145_motion",
    "StateObs.Mltp.C145_sequences",
    "StateObs.Imu.C145_fixed",
    "StateObs.Imu.C145_fixed_sequences"
   ],
   "note": "The class with a multiplicative state, and the class with fixed contacts. Steps (and, for fixed contacts, orientations of the states) that turn by an angle below 1e-16 but not zero are excluded by hypothesis: the code neglects them (C34)."
  },
  {
   "property": "C146",
   "status": "proved",
   "theorems": [
    "StateObs.Follow.C146_ekf",
    "StateObs.Follow.C146_differences",
    "StateObs.Follow.C146_linear",
    "StateObs.Follow.C146_data"
   ],
   "note": "Data are read by getInput and getMeasurement after simulateDynamicsTo(K), for all times below K; the data exist (C146_data). State arithmetics by default (sum and difference of vectors)."
  },
  {
   "property": "C147",
   "status": "proved",
   "theorems": [
    "StateObs.Offline.C147_attitude",
    "StateObs.Offline.C147_attitude_noInput",
    "StateObs.Offline.C147_attitude_data",
    "StateObs.Offline.C147_exact",
    "StateObs.Offline.C147_noInput",
    "StateObs.Offline.C147_data"
   ],
   "note": "The true motion has constant accelerations during each sampling period, as the dynamics of the classes (rotations below 1e-16 during a period neglected, C34); such motions and data exist for every initial state and inputs (C147_data, C147_attitude_data)."
  },
  {
   "property": "C148",
   "status": "partial",
   "theorems": [
    "StateObs.KO.C148_forever_partial",
    "StateObs.KO.C148_partial",
    "StateObs.KO.C148_false"
   ],
   "note": "Refuted as stated (C148_false): the contacts get the forces of springs to the origin of the world (C106). C148_partial: with those forces and no torques, the angular springs being zero or the orientation the one of the world, the state vector is exactly unchanged, by one estimation and by any number of them (C148_forever_partial). Missing: the angular springs at other orientations."
  }
 ]
}
