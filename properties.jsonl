{"id": "C01", "title": "Indexed arrays are contiguous windows of a time-indexed map", "statement": "Any sequence of setValue/pushBack/popFront/clear/reset/truncateAfter calls that trips no assertion makes an indexed array behave like a finite map from consecutive time indexes to values: a read at k returns the value most recently written at k, every other index is untouched, checkIndex(k) is true exactly for the stored indexes, and getFirstIndex/getLastIndex/getNextIndex/size agree with that set.", "quantifier": "all element types, all operation sequences of any length, all (positive or negative) time indexes", "why_tests_cant": "the property is about every operation history; a test only samples a few sequences", "anchors": ["include/state-observation/tools/definitions.hxx: IndexedMatrixArrayT::setValue, pushBack, popFront, clear, reset, truncateAfter, operator[], checkIndex, getFirstIndex, getLastIndex, getNextIndex, size"]}
{"id": "C02", "title": "Out-of-window reads, gaps and empty pops are always detected", "statement": "In an assertion-enabled build, reading an index outside the stored window, writing with a gap, or popping an empty array always fails an assertion, and no other use of those calls does.", "quantifier": "all arrays, all indexes", "why_tests_cant": "needs the exact characterisation of the failing inputs, not examples of them", "anchors": ["include/state-observation/tools/definitions.hxx: check_(TimeIndex), check_(), checkNext_, operator[], popFront, setValue"]}
{"id": "C03", "title": "setLastIndex/setFirstIndex re-index without touching data", "statement": "After setFirstIndex(i) getFirstIndex() is i, after setLastIndex(i) getLastIndex() is i, and the stored values and their order are unchanged.", "quantifier": "all arrays and target indexes", "why_tests_cant": "off-by-k errors for every size, never exercised by the repository tests", "anchors": ["include/state-observation/tools/definitions.hxx: setLastIndex, setFirstIndex, getLastIndex"]}
{"id": "C04", "title": "Truncation keeps exactly the requested side", "statement": "truncateAfter(t) keeps exactly the entries with index <= t and truncateBefore(t) keeps exactly the entries with index >= t; kept entries keep their index and value.", "quantifier": "all arrays, all t including t before the first, equal to the last, and after the last index", "why_tests_cant": "boundary behaviour over all sizes and all t", "anchors": ["include/state-observation/tools/definitions.hxx: truncateAfter, truncateBefore"]}
{"id": "C05", "title": "Log files round-trip", "statement": "Writing an indexed array of equally sized matrices with writeInFile and reading it back with readFromFile or readVectorsFromFile (same time-stamp convention) gives the same indexes and values, and append mode concatenates.", "quantifier": "all arrays (any length, any dimensions, any first index)", "why_tests_cant": "quantifies over all contents and lengths including the end-of-file boundary", "anchors": ["include/state-observation/tools/definitions.hxx: writeInFile, readFromFile, readVectorsFromFile"]}
{"id": "C06", "title": "Checked values never leak an unset value", "statement": "A checked item that is not set (never assigned, or reset since) cannot be read in a checking build; assignment, copy, and copy-assignment transfer both the value and the set flag; reset followed by assignment gives the new value.", "quantifier": "all value types, all operation histories, both copy directions", "why_tests_cant": "history property over arbitrary interleavings of assignments, copies and resets", "anchors": ["include/state-observation/tools/definitions.hxx: CheckedItem, chckitm_check_, operator=, reset, set", "include/state-observation/tools/definitions.hpp: CheckedItem"]}
{"id": "C07", "title": "getEstimatedState consumes the measurements in order, each exactly once", "statement": "When measurements for times k0+1..k are stored (k0 the current time), getEstimatedState(k) applies the one-step estimator to y_{k0+1}, ..., y_k in that order, each exactly once, ends at current time k, and trips no assertion.", "quantifier": "all observers, all current times, all numbers of pending measurements, measurements before k0+1 possibly still stored", "why_tests_cant": "any number of buffered steps and any buffer alignment", "anchors": ["src/zero-delay-observer.cpp: getEstimatedState, setMeasurement, pushMeasurement", "src/kalman-filter-base.cpp: oneStepEstimation_"]}
{"id": "C08", "title": "Batching independence", "statement": "Calling getEstimatedState(k) once gives the same state, covariance, time and remaining buffers as calling it for any increasing sequence of intermediate times ending in k, and as feeding measurements one at a time and estimating after each.", "quantifier": "all splits of a history of any length", "why_tests_cant": "all interleavings of feeding and estimating", "anchors": ["src/zero-delay-observer.cpp: getEstimatedState, estimateState, pushMeasurement, pushInput"]}
{"id": "C09", "title": "Estimation never drops future data and keeps the buffers bounded", "statement": "After getEstimatedState(k) every stored measurement and input with time >= k is still stored with its time, and nothing older than k is; hence in a feed-one/estimate loop the buffers never hold more than one measurement.", "quantifier": "all histories", "why_tests_cant": "unbounded histories (memory growth) cannot be tested", "anchors": ["src/zero-delay-observer.cpp: getEstimatedState"]}
{"id": "C10", "title": "setState to an earlier time clears measurements and inputs", "statement": "As documented, if k is earlier than the current time, setState(x,k) clears all measurements and inputs; otherwise exactly the measurements with time <= k and inputs with time < k are dropped. The state is then x at time k.", "quantifier": "all observer states, all k", "why_tests_cant": "the earlier-time branch is never reached by tests; relation to every prior buffer content", "anchors": ["src/zero-delay-observer.cpp: setState", "include/state-observation/observer/zero-delay-observer.hpp: setState"]}
{"id": "C11", "title": "Filters run without inputs when the dynamics do not use them", "statement": "A filter with input size p>0 whose dynamics ignore the input (B = 0 / no feedthrough) can be run on measurements alone, as the assertion messages promise.", "quantifier": "all such filters and histories", "why_tests_cant": "interaction of buffer bookkeeping with optional data", "anchors": ["src/zero-delay-observer.cpp: getEstimatedState (u_.popFront)", "src/linear-kalman-filter.cpp: prediction_", "src/extended-kalman-filter.cpp: prediction_"]}
{"id": "C12", "title": "Measurement/input ordering is enforced", "statement": "In an assertion-enabled build setMeasurement/setInput accept exactly a stored index or the next one (when empty: current time+1 for measurements, current time or current time+1 for inputs when a state is set), so no history without assertion failure ever contains a gap or a reordered measurement.", "quantifier": "all histories of calls", "why_tests_cant": "history property", "anchors": ["src/zero-delay-observer.cpp: setMeasurement, setInput, pushMeasurement, pushInput"]}
{"id": "C13", "title": "Time accessors report the last stored index", "statement": "getMeasurementTime / getInputTime return the last stored measurement / input time whenever one is stored.", "quantifier": "all observer states", "why_tests_cant": "accessor preconditions on every reachable state", "anchors": ["src/zero-delay-observer.cpp: getMeasurementTime, getInputTime"]}
{"id": "C14", "title": "Changing a dimension invalidates exactly the data of that dimension", "statement": "setStateSize/setMeasureSize/setInputSize with a new size clear every stored vector and matrix whose dimensions depend on it (so a later estimate without re-setting them fails its assertion) and keep all others; with the current size they change nothing.", "quantifier": "all filter states and sizes", "why_tests_cant": "all combinations of prior content and new sizes", "anchors": ["src/zero-delay-observer.cpp: setStateSize, setMeasureSize, setInputSize", "src/kalman-filter-base.cpp: setStateSize, setMeasureSize", "src/linear-kalman-filter.cpp: setStateSize, setMeasureSize, setInputSize"]}
{"id": "C15", "title": "The covariance stays symmetric positive semidefinite and the innovation covariance invertible", "statement": "If the initial covariance and every process covariance are symmetric positive semidefinite and every measurement covariance is positive definite, then after any number of steps with arbitrary (time-varying) A, C and measurements the state covariance is symmetric positive semidefinite and every innovation covariance is positive definite, so its Cholesky factorisation exists.", "quantifier": "all dimensions, all matrices, all histories of any length (exact arithmetic)", "why_tests_cant": "for all matrices and all numbers of steps", "anchors": ["src/kalman-filter-base.cpp: oneStepEstimation_"]}
{"id": "C16", "title": "The update is the minimum-variance correction", "statement": "The posterior covariance equals the Joseph form for the gain used, is below the predicted covariance in the Loewner order, and is below the Joseph-form covariance of any other gain.", "quantifier": "all dimensions, matrices and competing gains", "why_tests_cant": "optimality quantifies over all gains", "anchors": ["src/kalman-filter-base.cpp: oneStepEstimation_"]}
{"id": "C17", "title": "The reported covariance is the true error covariance", "statement": "For a linear system with the filter's own A, B, C, D, the estimation error after any number of steps is an exact linear combination of the initial error, process noises and measurement noises, independent of inputs and true states, and the filter's covariance equals the corresponding combination of their covariances.", "quantifier": "all linear systems, input sequences, noise realisations and horizon lengths", "why_tests_cant": "induction over unbounded horizons and all noise realisations", "anchors": ["src/kalman-filter-base.cpp: oneStepEstimation_", "src/linear-kalman-filter.cpp: prediction_, simulateSensor_"]}
{"id": "C18", "title": "Scaling all covariances does not change the estimates", "statement": "Multiplying the initial covariance, all process covariances and all measurement covariances by one positive factor leaves every state estimate unchanged and multiplies the covariance by that factor (documented for the LIPM estimator).", "quantifier": "all positive factors, filters and histories", "why_tests_cant": "for all factors and histories", "anchors": ["src/kalman-filter-base.cpp: oneStepEstimation_", "include/state-observation/dynamics-estimators/lipm-dcm-estimator.hpp: class documentation"]}
{"id": "C19", "title": "A measurement equal to its prediction leaves the prediction", "statement": "If the measurement equals the predicted measurement, the new estimate is exactly the predicted state, whatever the gain.", "quantifier": "all filters (any state arithmetic with x + 0 = x) and matrices", "why_tests_cant": "all gains, including degenerate ones", "anchors": ["src/kalman-filter-base.cpp: oneStepEstimation_"]}
{"id": "C20", "title": "The linear filter implements the documented recursion", "statement": "Every step of LinearKalmanFilter computes x_{k+1|k} = A x_k + B u_k, y_{k+1|k} = C x_{k+1|k} + D u_{k+1}, and corrects with y_{k+1}; with no inputs (p=0 or B=0, D=0) the input terms vanish.", "quantifier": "all matrices, inputs and times", "why_tests_cant": "time alignment of every input/measurement over all histories", "anchors": ["src/linear-kalman-filter.cpp: prediction_, simulateSensor_", "src/kalman-filter-base.cpp: oneStepEstimation_"]}
{"id": "C21", "title": "EKF with an affine functor equals the linear filter", "statement": "An extended filter whose functor is affine and whose Jacobians come from finite differences (any nonzero step) produces exactly the linear filter's estimates and covariances.", "quantifier": "all affine systems, nonzero finite-difference steps, histories", "why_tests_cant": "exactness for all step sizes and histories", "anchors": ["src/extended-kalman-filter.cpp: getAMatrixFD, getCMatrixFD, prediction_, simulateSensor_"]}
{"id": "C22", "title": "EKF predictions are computed from the current state, input and functor", "statement": "The prediction used by the next estimation step is the functor applied to the state and input stored at the time of that step, even if the state, input or functor was changed after a prediction or Jacobian had been requested.", "quantifier": "all interleavings of setState, setCurrentState, setInput, setFunctor, updateStatePrediction, getAMatrixFD, getEstimatedState", "why_tests_cant": "cache-invalidation over all call interleavings", "anchors": ["src/extended-kalman-filter.cpp: prediction_, predictSensor_"]}
{"id": "C23", "title": "reset forgets the previous run", "statement": "After reset() and re-initialisation with the same data, the filter produces the same estimates as a freshly constructed one, independent of its past.", "quantifier": "all histories before and after the reset", "why_tests_cant": "all pairs of histories", "anchors": ["src/extended-kalman-filter.cpp: reset", "src/kalman-filter-base.cpp: reset", "src/observer-base.cpp: reset"]}
{"id": "C24", "title": "Finite-difference measurement Jacobian has the dimensions setC requires", "statement": "The matrix returned by getCMatrixFD passes setC's dimension check for every measurement size and measurement tangent size, and is computed with the filter's measurement arithmetic.", "quantifier": "all m, mt, n, nt", "why_tests_cant": "all dimension combinations", "anchors": ["src/extended-kalman-filter.cpp: getCMatrixFD", "src/kalman-filter-base.cpp: checkCmatrix"]}
{"id": "C25", "title": "The estimated bias respects the bias limit", "statement": "After every update() the local bias lies within the configured limit on each axis whose limit is positive, and is unconstrained on the other axis.", "quantifier": "all limits (including one-sided), orientations and histories", "why_tests_cant": "all measurement histories and orientations", "anchors": ["src/lipm-dcm-estimator.cpp: update", "include/state-observation/tools/miscellaneous-algorithms.hpp: clampScalar"]}
{"id": "C26", "title": "Clamping the bias preserves the biased DCM", "statement": "The clamping in update() moves the removed bias into the DCM: unbiased DCM plus bias (world frame) is the same before and after clamping.", "quantifier": "all orientations, biases and limits", "why_tests_cant": "all orientations", "anchors": ["src/lipm-dcm-estimator.cpp: update"]}
{"id": "C27", "title": "LIPM tuning setters take effect and persist", "statement": "setDcmMeasureErrorStd, setZmpMeasureErrorStd, setBiasDriftPerSecond, setSamplingTime and setLipmNaturalFrequency each leave the filter with the covariances/matrices that the constructor would have produced with that value, in any order of calls.", "quantifier": "all parameter values and all call orders", "why_tests_cant": "all sequences of setter calls", "anchors": ["src/lipm-dcm-estimator.cpp: setDcmMeasureErrorStd, setBiasDriftPerSecond, updateMatricesABQ_", "src/unidim-lipm-dcm-estimator.cpp: same"]}
{"id": "C28", "title": "LIPM prediction follows the pendulum and keeps the local bias", "statement": "The filter's prediction is the discretised LIPM xi' = xi + omega dt (xi - zmp) with the zmp of the previous sample, and the bias is constant in the robot frame: rotating it by the relative yaw, for every orientation sequence.", "quantifier": "all states, zmps, orientation sequences", "why_tests_cant": "all sequences", "anchors": ["src/lipm-dcm-estimator.cpp: setInputs, updateMatricesABQ_", "src/unidim-lipm-dcm-estimator.cpp: setInputs, updateMatricesABQ_"]}
{"id": "C29", "title": "LIPM initial covariance is consistent", "statement": "Construction and both kinds of reset give a positive semidefinite covariance, and with a biased first measurement the initial state and covariance reproduce it: DCM + bias equals the measurement with exactly the measurement variance.", "quantifier": "all standard deviations and measurements", "why_tests_cant": "all parameters", "anchors": ["src/lipm-dcm-estimator.cpp: resetWithMeasurements, constructor", "src/unidim-lipm-dcm-estimator.cpp: resetWithInputs"]}
{"id": "C30", "title": "LIPM is translation equivariant", "statement": "Translating all DCM and ZMP data (and the initial DCM) by a constant translates the DCM estimates by it and leaves the bias estimates unchanged.", "quantifier": "all histories and translations", "why_tests_cant": "all histories", "anchors": ["src/lipm-dcm-estimator.cpp: setInputs, update", "src/unidim-lipm-dcm-estimator.cpp: setInputs, update"]}
{"id": "C31", "title": "The tilt estimate stays a unit vector", "statement": "If the initial tilt part of the state is nonzero, then after every step, for any gains, sampling time, sensor data and kinematic inputs, the tilt part has norm exactly one and the normalisation never divides by zero.", "quantifier": "all inputs, gains (any sign), histories of any length", "why_tests_cant": "division-by-zero freedom for all inputs", "anchors": ["src/tilt-estimator.cpp: oneStepEstimation_"]}
{"id": "C32", "title": "The tilt estimator processes buffered measurements", "statement": "With several consecutive measurements stored, getEstimatedState(k) processes them one after the other like any other observer.", "quantifier": "all numbers of buffered measurements", "why_tests_cant": "interaction of setState inside the step with the buffer bookkeeping", "anchors": ["src/tilt-estimator.cpp: oneStepEstimation_", "src/zero-delay-observer.cpp: getEstimatedState, setState"]}
{"id": "C33", "title": "The tilt estimator is at rest on the true state", "statement": "With consistent static data (accelerometer equal to g times the true tilt, no rotation, no velocity) the true state is a fixed point of the estimator; in general the estimator's drift equals the true dynamics when the estimate is exact.", "quantifier": "all true tilts, gains and sampling times", "why_tests_cant": "all states", "anchors": ["src/tilt-estimator.cpp: oneStepEstimation_"]}
{"id": "C34", "title": "Rotation vectors always give rotations", "statement": "For every vector (including zero and arbitrarily small or large ones) rotationVectorToRotationMatrix returns an orthogonal matrix of determinant one, rotationVectorToQuaternion a unit quaternion representing the same rotation, and negating the vector inverts the rotation.", "quantifier": "all 3-vectors", "why_tests_cant": "all reals including the near-zero branch", "anchors": ["include/state-observation/tools/rigid-body-kinematics.hxx: rotationVectorToAngleAxis, rotationVectorToRotationMatrix, rotationVectorToQuaternion"]}
{"id": "C35", "title": "Rotation vector / quaternion round trip", "statement": "quaternionToRotationVector(rotationVectorToQuaternion(v)) = v for every v with threshold < |v| < pi (0 below the threshold), and rotationVectorToQuaternion(quaternionToRotationVector(q)) = q up to sign for every unit q away from the threshold.", "quantifier": "all vectors / unit quaternions", "why_tests_cant": "continuum of inputs with branch points", "anchors": ["include/state-observation/tools/rigid-body-kinematics.hxx: quaternionToRotationVector, rotationVectorToQuaternion"]}
{"id": "C36", "title": "Roll-pitch-yaw round trip", "statement": "rotationMatrixToRollPitchYaw(rollPitchYawToRotationMatrix(r,p,y)) = (r,p,y) for |r|,|y| < pi (<=) and |p| < pi/2, and rollPitchYawToRotationMatrix is Rz(y) Ry(p) Rx(r).", "quantifier": "all angles in range", "why_tests_cant": "continuum of inputs", "anchors": ["include/state-observation/tools/rigid-body-kinematics.hxx: rotationMatrixToRollPitchYaw, rollPitchYawToRotationMatrix, rollPitchYawToQuaternion"]}
{"id": "C37", "title": "skewSymmetric is the cross product", "statement": "skewSymmetric(v) w = v x w, it is antisymmetric, and skewSymmetric2(v) is its square.", "quantifier": "all v, w", "why_tests_cant": "identity over all reals", "anchors": ["include/state-observation/tools/rigid-body-kinematics.hxx: skewSymmetric, skewSymmetric2"]}
{"id": "C38", "title": "twoVectorsToRotationMatrix maps one unit vector to the other", "statement": "For unit vectors that are not (nearly) opposite the result is a rotation mapping the first to the second (exactly outside the near-identity branch), and the call throws exactly when they are nearly opposite.", "quantifier": "all pairs of unit vectors", "why_tests_cant": "continuum, branch boundaries", "anchors": ["include/state-observation/tools/rigid-body-kinematics.hxx: twoVectorsToRotationMatrix"]}
{"id": "C39", "title": "Merging tilt and yaw gives a rotation with that tilt", "statement": "mergeTiltWithYaw and its axis-agnostic version return a rotation matrix whose transpose maps e_z to the given unit tilt, and whose yaw about the chosen axis is that of the second argument; merging a rotation's own tilt with itself returns it.", "quantifier": "all unit tilts, all rotations, all unit horizontal axes outside the singular set", "why_tests_cant": "continuum of inputs", "anchors": ["include/state-observation/tools/rigid-body-kinematics.hxx: mergeTiltWithYaw, mergeTiltWithYawAxisAgnostic, getInvariantOrthogonalVector"]}
{"id": "C40", "title": "Yaw extraction", "statement": "rotationMatrixToYaw and its axis-agnostic version return psi for a pure rotation of angle psi in (-pi,pi] about z, and pre-multiplying a rotation by a yaw rotation adds to the extracted angle (mod 2 pi).", "quantifier": "all angles / rotations", "why_tests_cant": "continuum of inputs", "anchors": ["include/state-observation/tools/rigid-body-kinematics.hxx: rotationMatrixToYaw, rotationMatrixToYawAxisAgnostic, getInvariantHorizontalVector"]}
{"id": "C41", "title": "isRotationMatrix recognises exactly the rotations", "statement": "For an exactly orthogonal matrix, isRotationMatrix is true if and only if its determinant is one.", "quantifier": "all orthogonal 3x3 matrices", "why_tests_cant": "needs all reflections, not sample ones", "anchors": ["include/state-observation/tools/rigid-body-kinematics.hxx: isRotationMatrix"]}
{"id": "C42", "title": "Regulating an orientation vector preserves the rotation", "statement": "regulateOrientationVector returns a vector representing the same rotation with norm at most 3pi/2, and at most pi when it changes its argument.", "quantifier": "all vectors of any norm", "why_tests_cant": "unbounded norms", "anchors": ["include/state-observation/tools/rigid-body-kinematics.hxx: regulateOrientationVector"]}
{"id": "C43", "title": "Homogeneous matrices and states invert", "statement": "invertHomoMatrix is the matrix inverse of a homogeneous transform and an involution; invertState is an involution and composes with the state to the identity pose.", "quantifier": "all rigid transforms / states", "why_tests_cant": "identities over all reals", "anchors": ["include/state-observation/tools/rigid-body-kinematics.hxx: invertHomoMatrix, invertState, vector6ToHomogeneousMatrix, homogeneousMatrixToVector6"]}
{"id": "C44", "title": "Rotation about a fixed point keeps it fixed", "statement": "The translation, velocity and acceleration returned by fixedPointRotationToTranslation make the given point stationary: position unchanged, zero velocity and zero acceleration.", "quantifier": "all rotations, velocities, accelerations, points", "why_tests_cant": "identity over all reals", "anchors": ["include/state-observation/tools/rigid-body-kinematics.hxx: fixedPointRotationToTranslation"]}
{"id": "C45", "title": "Analytic rotation Jacobians are the derivatives", "statement": "derivateRtvMultiplicative(R,v) is the derivative of R^T v, and the measurement Jacobian of the multiplicative IMU system the derivative of its measurement, under the filter's multiplicative state increment.", "quantifier": "all rotations and vectors", "why_tests_cant": "derivative at every point", "anchors": ["include/state-observation/tools/rigid-body-kinematics.hxx: derivateRtvMultiplicative, derivateRotationMultiplicative", "src/imu-mltpctive-dynamical-system.cpp: getCMatrix, getAMatrix"]}
{"id": "C46", "title": "An Orientation's two representations never disagree", "statement": "Starting from any constructor and applying any sequence of assignments, products, inverses, integrations, conversions and synchronisations, whenever both the quaternion and the matrix are set they represent the same rotation, and toMatrix3/toQuaternion return it.", "quantifier": "all operation sequences", "why_tests_cant": "cache-coherence over all histories", "anchors": ["include/state-observation/tools/rigid-body-kinematics.hxx: Orientation::operator=, setToProductNoAlias, inverse, integrate, toMatrix3, toQuaternion, synchronize"]}
{"id": "C47", "title": "Orientation integrate and differentiate are inverse", "statement": "R.integrate(R.differentiate(R1)) is R1, and differentiating after integrating returns the rotation vector (norm < pi).", "quantifier": "all rotations and all vectors with norm < pi above the threshold", "why_tests_cant": "continuum of inputs", "anchors": ["include/state-observation/tools/rigid-body-kinematics.hxx: Orientation::integrate, Orientation::differentiate"]}
{"id": "C48", "title": "Kinematics composition is a group law with inverse", "statement": "The product of fully set kinematics is associative, has the zero kinematics as identity, and k * k.getInverse() and k.getInverse() * k are the zero kinematics, including velocities and accelerations.", "quantifier": "all kinematics", "why_tests_cant": "identities over all reals", "anchors": ["include/state-observation/tools/rigid-body-kinematics.hxx: Kinematics::setToProductNoAlias, Kinematics::getInverse"]}
{"id": "C49", "title": "Kinematics composition sets exactly the derivable fields", "statement": "A product (or inverse) has a field set exactly when the fields it depends on are set in the operands, fields set in the result only depend on set fields of the operands, and no assertion is hit when position and orientation are set.", "quantifier": "all 2^12 flag combinations and all values", "why_tests_cant": "all flag combinations and stale values", "anchors": ["include/state-observation/tools/rigid-body-kinematics.hxx: Kinematics::setToProductNoAlias, getInverse"]}
{"id": "C50", "title": "Kinematics to vector and back", "statement": "fromVector(toVector(flags), flags) restores exactly the flagged fields, for every flag set, and toVector() uses the set fields.", "quantifier": "all flags and values", "why_tests_cant": "all flag combinations", "anchors": ["include/state-observation/tools/rigid-body-kinematics.hxx: Kinematics::toVector, Kinematics::fromVector"]}
{"id": "C51", "title": "Kinematics::integrate is exact for constant acceleration", "statement": "Integrating over dt1 then dt2 equals integrating over dt1+dt2 for the linear part (and for the angular part when the rotation axis is constant); integrate(0) is the identity.", "quantifier": "all kinematics and steps", "why_tests_cant": "identities over all reals", "anchors": ["include/state-observation/tools/rigid-body-kinematics.hxx: Kinematics::integrate, integrateKinematics"]}
{"id": "C52", "title": "Kinematics::update reproduces a constant-acceleration motion", "statement": "Given flags and a new kinematics, update() sets exactly the flagged fields, and when the flagged fields are not provided it reconstructs them consistently with integrate() over dt.", "quantifier": "all flag combinations, values and steps", "why_tests_cant": "all flag combinations", "anchors": ["include/state-observation/tools/rigid-body-kinematics.hxx: Kinematics::update"]}
{"id": "C53", "title": "Kinetics observer state layout is a partition", "statement": "For every maximum number of contacts and IMUs, the index segments of the state vector (and of the tangent vector) are pairwise disjoint, in range, and cover it exactly.", "quantifier": "all maxContacts and maxIMUs", "why_tests_cant": "all sizes", "anchors": ["include/state-observation/dynamics-estimators/kinetics-observer.hxx: *Index functions", "src/kinetics-observer.cpp: constructor"]}
{"id": "C54", "title": "Covariance resets keep the covariance valid and touch only their block", "statement": "Each covariance setter/resetter of the kinetics observer replaces exactly the rows and columns of its own tangent segment, and keeps the matrix symmetric positive semidefinite.", "quantifier": "all covariances, all segments", "why_tests_cant": "all matrices and indexes", "anchors": ["src/kinetics-observer.cpp: setBlockStateCovariance, setGyroBias, setStateUnmodeledWrench, setStateKinematics, resetStateCovariance*", "include/state-observation/dynamics-estimators/kinetics-observer.hxx"]}
{"id": "C55", "title": "Contact bookkeeping", "statement": "Contacts can be added, removed and cleared in any order: addContact returns a free slot when asked for one, getNumberOfContacts is the number of added-and-not-removed contacts, and after clearContacts the observer is usable with no contact.", "quantifier": "all sequences of contact operations", "why_tests_cant": "history property", "anchors": ["src/kinetics-observer.cpp: addContact, removeContact, clearContacts, getNumberOfContacts"]}
{"id": "C56", "title": "The measurement vector has room for every sensor that is written into it", "statement": "In every reachable state, update() builds a measurement vector whose size is exactly the sum of the sizes of the sensors it writes (IMUs of this iteration, contacts with a wrench sensor, absolute pose), so every write is in range.", "quantifier": "all sequences of sensor updates over any number of iterations", "why_tests_cant": "history property over unbounded iterations", "anchors": ["src/kinetics-observer.cpp: update, startNewIteration_, updateContactWithWrenchSensor, updateContactWithNoSensor, setIMU, getMeasurementSize"]}
{"id": "C57", "title": "Automatic IMU numbering picks a free IMU", "statement": "setIMU with automatic numbering stores the data in an IMU slot not yet used in this iteration whenever one is free.", "quantifier": "all maxIMUs and all sets of already-set IMUs", "why_tests_cant": "all configurations", "anchors": ["src/kinetics-observer.cpp: setIMU"]}
{"id": "C58", "title": "Iteration clock", "statement": "Along every history the data time is the estimation time or one ahead, update() advances the estimation time to the data time, and calling update() again without new data changes nothing.", "quantifier": "all call histories", "why_tests_cant": "history property", "anchors": ["src/kinetics-observer.cpp: startNewIteration_, update"]}
{"id": "C59", "title": "Option setters set their own option", "statement": "setWithGyroBias, setWithUnmodeledWrench and setWithAccelerationEstimation change their own option and no other.", "quantifier": "all option states", "why_tests_cant": "frame conditions on all states", "anchors": ["src/kinetics-observer.cpp: setWithGyroBias, setWithUnmodeledWrench, setWithAccelerationEstimation"]}
{"id": "C60", "title": "State sum and difference are inverse", "statement": "stateDifference(stateSum(x,t),x) = t on all the components in use (rotation parts with norm below pi; those below 1e-16 are taken to be no rotation), stateSum(x,0)=x, and stateSum(y,stateDifference(x,y)) has the vectors and the orientations of x, for the kinetics observer and the multiplicative IMU system; both operations leave the entries of the other components of their output as they were.", "quantifier": "all reachable observers, all states with unit quaternions, all tangent vectors", "why_tests_cant": "continuum of inputs, all contact configurations", "anchors": ["src/kinetics-observer.cpp: stateSum, stateDifference", "src/imu-mltpctive-dynamical-system.cpp: stateSum, stateDifference"]}
{"id": "C61", "title": "Newton-Euler consistency of the kinetics observer", "statement": "The accelerations computed from the total wrench satisfy Newton's second law for the moving centre of mass and Euler's equation for the angular momentum about the frame origin.", "quantifier": "all states, wrenches and inertial parameters with invertible inertia", "why_tests_cant": "all reals", "anchors": ["src/kinetics-observer.cpp: computeAccelerations_"]}
{"id": "C62", "title": "The simulator iterates the dynamics", "statement": "After simulateDynamicsTo(k) from a state at k0, the stored states are x_{i+1} = f(x_i,u_i,i) and measurements y_i = h(x_i,u_i,i) for all k0<=i<k, where u_i is the most recent input set at or before i.", "quantifier": "all functors, inputs, horizons", "why_tests_cant": "unbounded horizons and all input schedules", "anchors": ["src/dynamical-system-simulator.cpp: simulateDynamics, simulateDynamicsTo, getInput"]}
{"id": "C63", "title": "The simulator computes states and measurements on demand", "statement": "getState(k) and getMeasurement(k) simulate as far as needed and return the value at k, as documented.", "quantifier": "all k beyond the simulated horizon", "why_tests_cant": "all k", "anchors": ["src/dynamical-system-simulator.cpp: getState, getMeasurement"]}
{"id": "C64", "title": "Setting an input or a state twice keeps the last value", "statement": "setInput(u,k) makes getInput(k) return u, whatever was set before; setState(x,k) makes the current state x at k and discards later states.", "quantifier": "all histories", "why_tests_cant": "history property", "anchors": ["src/dynamical-system-simulator.cpp: setInput, setState, getInput"]}
{"id": "C65", "title": "A simulated sensor returns one measurement per state", "statement": "Between two setState calls getMeasurements returns the same vector each time (noise is drawn once), the noiseless measurement only depends on the state, and the appended direct inputs are the tail of the state vector.", "quantifier": "all sensors, states, call sequences, noise generators", "why_tests_cant": "history property, arbitrary noise", "anchors": ["src/algebraic-sensor.cpp: getMeasurements, setState, computeNoisyMeasurement_, concatenateWithInput"]}
{"id": "C66", "title": "IMU measurement model", "statement": "The accelerometer measures R^T(a+g), the gyrometer R^T omega, the magnetometer R^T b with the configured field; norms are preserved for rotations, and quaternion and matrix modes agree.", "quantifier": "all orientations, accelerations, velocities", "why_tests_cant": "all reals", "anchors": ["src/linear-acceleration.cpp", "src/rotation-velocity.cpp", "src/magnetic-field.cpp", "src/accelerometer-gyrometer.cpp", "src/accelerometer-gyrometer-magnetometer.cpp"]}
{"id": "C67", "title": "Gaussian noise has the requested covariance", "statement": "After setCovarianceMatrix(P) with P symmetric positive definite, the noise added is L g + bias with L L^T = P, so for standardised g it has covariance P and mean bias; if the numbers g are independent with the standard normal law, the noisy value has the normal law with covariance P.", "quantifier": "all dimensions and covariances", "why_tests_cant": "all matrices", "anchors": ["src/gaussian-white-noise.cpp: setCovarianceMatrix, getNoisy", "include/state-observation/tools/probability-law-simulation.hxx: getGaussianVector"]}
{"id": "C68", "title": "Logger records what is pushed", "statement": "After any sequence of record/push/updateAddress/clearLogs calls, getRecord(a) contains exactly the values the variable had at each push since it was recorded, also across updateAddress, and pushing a recorded variable does not throw.", "quantifier": "all call sequences", "why_tests_cant": "history property", "anchors": ["src/logger.cpp", "include/state-observation/tools/logger.hxx: push, updateAddress, record"]}
{"id": "C69", "title": "Scalar helpers", "statement": "clampScalar returns the nearest value in [min,max]; signum the sign; checkIfNormalized/normalizedLazy give a vector of norm within tolerance; the constexpr square root, when its iteration stops, returns a number whose square is the argument.", "quantifier": "all reals", "why_tests_cant": "all reals", "anchors": ["include/state-observation/tools/miscellaneous-algorithms.hpp"]}
{"id": "C70", "title": "finiteTimeAccControl drives to zero", "statement": "With negative gains, as documented, the acceleration at rest points towards zero, and the vector version computes every component.", "quantifier": "all positions, gains", "why_tests_cant": "all reals and all components", "anchors": ["include/state-observation/tools/miscellaneous-algorithms.hpp: finiteTimeAccControl"]}
{"id": "C71", "title": "Fixed-contact flexibility filter covariances and saturation", "statement": "The measurement covariance given to the filter always is the user's block followed by the virtual-measurement variance on the diagonal for every number of contacts, and the saturated force components of the model-based estimator always lie within their limits.", "quantifier": "all contact counts, call orders, values", "why_tests_cant": "all call sequences", "anchors": ["src/fixed-contact-ekf-flex-estimator-imu.cpp: updateCovarianceMatrix_, setContactsNumber", "src/model-base-ekf-flex-estimator-imu.cpp: getFlexibilityVector, updateMeasurementCovarianceMatrix_"]}
{"id": "C72", "title": "Quaternion caches of the dynamical systems are transparent", "statement": "The cached orientation-vector-to-quaternion conversion of the IMU dynamical systems always equals a fresh conversion, so stateDynamics and measureDynamics are functions of their arguments only.", "quantifier": "all call sequences", "why_tests_cant": "cache coherence over all histories", "anchors": ["src/imu-dynamical-system.cpp: computeQuaternion_", "src/imu-fixed-contact-dynamical-system.cpp: computeQuaternion_", "src/stable-imu-fixed-contact-dynamical-system.cpp: computeQuaternion_"]}
{"id": "C73", "title": "Contact constraints of the flexibility model", "statement": "The virtual contact measurements are zero exactly when the flexibility leaves the contact points in place, and the pose obtained by rotating about a contact point has zero virtual measurement there.", "quantifier": "all contact positions, rotations", "why_tests_cant": "all reals", "anchors": ["src/imu-fixed-contact-dynamical-system.cpp: measureDynamics", "include/state-observation/tools/rigid-body-kinematics.hxx: fixedPointRotationToTranslation"]}
{"id": "C74", "title": "State Jacobian of the multiplicative IMU system", "statement": "Whenever the rotation over one sampling period exceeds 1e-16 rad, getAMatrix of the multiplicative IMU system is the derivative of stateDynamics with respect to multiplicative increments of the state, stateDynamics keeps quaternions unit, and the Jacobians returned do not depend on previous calls on the object.", "quantifier": "all states with unit quaternion, inputs, sampling periods, call histories", "why_tests_cant": "derivative of a nonlinear map at all points; all histories", "anchors": ["src/imu-mltpctive-dynamical-system.cpp: getAMatrix, stateDynamics", "include/state-observation/tools/rigid-body-kinematics.hxx: derivateRotationMultiplicative"]}
{"id": "C75", "title": "Finite differences of orientations", "statement": "derivateRotationFD and derivateHomogeneousMatrixFD return the constant velocities that lead from the first pose to the second one in dt, by a rotation of at most half a turn; integrating them with integrateKinematics gives the second pose back.", "quantifier": "all pairs of orientations, dt > 0", "why_tests_cant": "all pairs of rotations, including half turns", "anchors": ["include/state-observation/tools/rigid-body-kinematics.hxx: derivateRotationFD, derivateHomogeneousMatrixFD, integrateKinematics"]}
{"id": "C76", "title": "IMU velocities are reconstructed from successive poses", "statement": "When an IMU is given without velocities, as documented, setIMU computes them by finite differences with the previous data of that IMU and returns.", "quantifier": "all histories, all poses", "why_tests_cant": "history property over all data", "anchors": ["include/state-observation/dynamics-estimators/kinetics-observer.hpp: setIMU comment", "src/kinetics-observer.cpp: setIMU", "include/state-observation/tools/rigid-body-kinematics.hxx: Kinematics::update"]}
{"id": "C77", "title": "A simulation can be continued from a given state", "statement": "Whenever setState accepts a state, the simulation can be continued from it: simulateDynamics returns (dynamics and input being set).", "quantifier": "all histories, states and indexes", "why_tests_cant": "history property", "anchors": ["src/dynamical-system-simulator.cpp: setState, simulateDynamics"]}
{"id": "C78", "title": "Logger::save writes every record to its file", "statement": "save writes, for each recorded variable with a file name of its own, a file from which its record is read back at the same indexes, touches no other file, and keeps the records or, when asked, empties them keeping the indexing.", "quantifier": "all histories, file contents, number formats", "why_tests_cant": "all histories and contents", "anchors": ["src/logger.cpp: save", "include/state-observation/tools/definitions.hxx: writeInFile"]}
{"id": "C79", "title": "Approximate comparison of scalars", "statement": "isApprox says that equal numbers are equal, is symmetric and independent of the scale; isApproxAbs compares with the absolute precision.", "quantifier": "all reals", "why_tests_cant": "all reals", "anchors": ["include/state-observation/tools/definitions.hxx: isApprox, isApproxAbs"]}
{"id": "C80", "title": "Sampling period of the fixed-contact flexibility estimator", "statement": "After setSamplingPeriod(dt) the estimator predicts the state one period dt ahead: position and velocity are integrated over dt, the orientation is turned by the angular velocity times dt.", "quantifier": "all call sequences, periods, states", "why_tests_cant": "all call sequences and states", "anchors": ["src/fixed-contact-ekf-flex-estimator-imu.cpp: setSamplingPeriod"]}
{"id": "C81", "title": "Guess of the flexibility", "statement": "setFlexibilityGuess accepts a full state, six numbers (position and orientation vector) or a homogeneous matrix; the guess becomes the current estimate, which getFlexibilityVector returns, and nothing else changes.", "quantifier": "all call sequences and guesses", "why_tests_cant": "all states and guesses", "anchors": ["src/fixed-contact-ekf-flex-estimator-imu.cpp: setFlexibilityGuess"]}
{"id": "C82", "title": "One flexibility estimation", "statement": "With an input and a measurement for the next time, getFlexibilityVector performs exactly one step of the extended Kalman filter for the IMU with fixed contacts (process over one period, predicted readings of the IMU and of every contact, Jacobians by forward differences), then replaces the orientation vector by a short one of the same rotation in both the result and the filter; the measurement is consumed and asking again returns the same.", "quantifier": "all reachable estimators, inputs, measurements, numbers of contacts", "why_tests_cant": "all states, sizes and call sequences", "anchors": ["src/fixed-contact-ekf-flex-estimator-imu.cpp: getFlexibilityVector", "src/ekf-flexibility-estimator-base.cpp: getFlexibilityVector", "src/imu-fixed-contact-dynamical-system.cpp"]}
{"id": "C83", "title": "Asking for the predicted measurement", "statement": "getPredictedMeasurement returns the measurement predicted from the current estimate and never changes the later estimations.", "quantifier": "all call sequences", "why_tests_cant": "all call sequences", "anchors": ["src/ekf-flexibility-estimator-base.cpp: getPredictedMeasurement", "src/extended-kalman-filter.cpp: updateStateAndMeasurementPrediction"]}
{"id": "C84", "title": "A kinetics observer fed according to its documentation never stops", "statement": "A client that gives the centre of mass and a state with a unit quaternion, adds contacts at free places, and at each iteration gives IMUs (each once, with position and orientation of its frame) and the kinematics of every contact, then calls update(), never meets a failed assertion or an undefined operation, whatever covariances (positive semidefinite; positive definite for the IMUs), options and inertial parameters it sets in between (mass not zero, effective inertia not singular). The observer makes one estimation per update() that follows data, its time index counts them, and the quaternion of its state stays a unit one.", "quantifier": "all numbers of contacts and IMUs, all call sequences of that form of any length, all values", "why_tests_cant": "unbounded call sequences and values", "anchors": ["src/kinetics-observer.cpp: update, setIMU, updateContactWithNoSensor, addContact, setStateVector, setCenterOfMass"]}
{"id": "C85", "title": "update() of the kinetics observer is one step of an extended Kalman filter", "statement": "When update() returns with new data, the new estimate is the prediction of the model from the previous estimate, moved by the Kalman gain times the difference between the signals given in the iteration and their prediction, where the Jacobians are the finite differences of the dynamics at the estimate and of the sensor model at the prediction, and the measurement covariance is the block diagonal matrix of the covariances of the sensors in the order of the signals; the new covariance is the posterior one; the time advances by one.", "quantifier": "all histories of calls with positive semidefinite covariances, all numbers of sensors and contacts", "why_tests_cant": "all histories, states and covariances", "anchors": ["src/kinetics-observer.cpp: update", "src/kalman-filter-base.cpp: oneStepEstimation_", "src/extended-kalman-filter.cpp: getAMatrixFD, getCMatrixFD"]}
{"id": "C86", "title": "The elastic inverted pendulum follows the angular momentum theorem", "statement": "With the mass, height, elasticity and period last given, stateDynamics integrates the positions and speeds over one period; the abscissa has the acceleration given as the input and the angle the one for which the rate of the angular momentum about the joint is the sum of the elastic moment and of the moment of the weight.", "quantifier": "all sequences of setters, all states and inputs, all motions through the state", "why_tests_cant": "a physical law over a continuum of states", "anchors": ["src/bidim-elastic-inv-pendulum-dyn-sys.cpp"]}
{"id": "C87", "title": "The accelerations of the robot on elastic contacts obey the Newton-Euler equations", "statement": "For every reachable configuration of the elastic dynamical system and every state and input, the linear and angular accelerations of the floating frame returned by the system are the ones for which, on any motion through that state, the mass times the acceleration of the centre of mass is the total contact, rope and unmodeled force minus the weight, and the rate of the total angular momentum about the world origin is the total moment plus the moment of the weight.", "quantifier": "all sequences of calls, all states and inputs, all motions through them", "why_tests_cant": "a physical law over a continuum of states, inertias and motions", "anchors": ["src/imu-elastic-local-frame-dynamical-system.cpp: computeAccelerations"]}
{"id": "C88", "title": "The momentum rates reported from the forces and from the kinematics agree with the motion", "statement": "getMomentaDotFromForces returns the total force (with the weight) and the total moment, getMomentaDotFromKinematics returns the rates of the linear and angular momenta of a robot moving with the accelerations of the state, and they agree when the accelerations are the ones of the dynamics.", "quantifier": "all states, inputs and motions", "why_tests_cant": "a continuum of states and motions", "anchors": ["src/imu-elastic-local-frame-dynamical-system.cpp: getMomentaDotFromForces, getMomentaDotFromKinematics"]}
{"id": "C89", "title": "Contact forces are those of a visco-elastic element, rope forces pull towards the anchor", "statement": "The force of an elastic contact is minus the stiffness times its displacement from its rest place minus the damping times its velocity, and its moment likewise from its orientation and angular velocity, in the frame of the contact; with the same coefficients in all directions the force in the world points back to the rest place and against the velocity, and a contact fixed on the robot never gives more power than its spring releases. The force of ropes is the sum of forces along the ropes, proportional to their elongation, with the moments that these forces have about the origin. At rest all forces and moments are null. One wrench per contact, for any number of contacts.", "quantifier": "all configurations, states and inputs", "why_tests_cant": "a continuum of configurations", "anchors": ["src/imu-elastic-local-frame-dynamical-system.cpp: computeForcesAndMoments, computeElastContactForcesAndMoments, computeElastPendulumForcesAndMoments"]}
{"id": "C90", "title": "One step of the elastic system integrates the motion and refreshes the forces", "statement": "stateDynamics integrates position, orientation and velocities over the sampling period with the accelerations of the dynamics at the given state, stores in the next state the contact forces of the new configuration, lets the unmodeled forces fade, and keeps the bias and the drift; with process noise the returned vector is the next state with noise added.", "quantifier": "all reachable systems, states, inputs, all noises", "why_tests_cant": "a continuum of states and configurations", "anchors": ["src/imu-elastic-local-frame-dynamical-system.cpp: stateDynamics, iterateDynamicsEuler"]}
{"id": "C91", "title": "The measurement predicted by the elastic system is that of sensors carried by the robot", "statement": "measureDynamics predicts for a state and an input: the specific force and the angular velocity that an IMU mounted on the robot reads when the robot moves as the state says with the accelerations of the dynamics; the wrench of each contact, if forces are measured; the pose of the robot moved by the drift, if the absolute pose is measured. It returns for every configured system, with sensor noise added if there is one.", "quantifier": "all reachable systems, states, inputs, all motions through them, all sensor noises", "why_tests_cant": "a kinematic law over a continuum of motions and all option combinations", "anchors": ["src/imu-elastic-local-frame-dynamical-system.cpp: measureDynamics"]}
{"id": "C92", "title": "The Jacobians of the elastic system are finite differences of its own dynamics and measurement", "statement": "stateDynamicsJacobian and measureDynamicsJacobian return, for the last state and input given, the matrix whose column for each part of the state is the finite difference of the next state or of the measurement for the configured step; they can be asked again with the same result; the columns of the parts that are not estimated are the exact derivative.", "quantifier": "all reachable systems, states, inputs and steps", "why_tests_cant": "all states and all option combinations; the caches inside the system must not leak between evaluations", "anchors": ["src/imu-elastic-local-frame-dynamical-system.cpp: stateDynamicsJacobian, measureDynamicsJacobian"]}
{"id": "C93", "title": "The measurement noise covariance of the elastic flexibility estimator is the one the client asked for", "statement": "After any calls to ModelBaseEKFFlexEstimatorIMU, getMeasurementNoiseCovariance returns the matrix the filter uses, of the size of the measurement, made of the covariance given for the IMU and of the variances chosen for the forces and the absolute pose; changing these variances changes it; resetCovarianceMatrices restores the defaults.", "quantifier": "all sequences of API calls, all numbers of contacts and options, all contents of uninitialised memory", "why_tests_cant": "unbounded call histories; uninitialised coefficients look fine in most test runs", "anchors": ["src/model-base-ekf-flex-estimator-imu.cpp: updateMeasurementCovarianceMatrix_, setMeasurementNoiseCovariance, setForceVariance, setAbsolutePosVariance, resetCovarianceMatrices, getDefaultRIMU"]}
{"id": "C94", "title": "Process noise and state covariance of the elastic flexibility estimator follow the options", "statement": "The covariances returned are those the filter uses and have the size of the state; resetting them gives the documented variances for each enabled option; covariances given by the client are used; enabling the estimation of unmodeled forces, of the bias of the centre of mass or of the drift makes the estimator estimate them.", "quantifier": "all sequences of API calls, all measurements", "why_tests_cant": "that an estimate never moves is a statement over all executions and all measurements", "anchors": ["src/model-base-ekf-flex-estimator-imu.cpp: getDefaultQ, resetCovarianceMatrices, setProcessNoiseCovariance, setWithUnmodeledForces, setWithComBias, setWithAbsolutePos"]}
{"id": "C95", "title": "Limits of contact forces and torques bound the estimate", "statement": "When the limits are on, the estimated forces of every contact are within the forces limit and the estimated torques within the torques limit; values within the limits are not changed.", "quantifier": "all reachable estimators, all measurements, all limits", "why_tests_cant": "the component saturated depends on the contact; needs all states", "anchors": ["src/model-base-ekf-flex-estimator-imu.cpp: getFlexibilityVector (saturation)", "include/state-observation/flexibility-estimation/model-base-ekf-flex-estimator-imu.hpp: setTorquesLimit, setForcesLimit, setLimitOn"]}
{"id": "C97", "title": "An estimator that is switched off returns zero and forgets its measurements", "statement": "After setOn(false) every call of getFlexibilityVector returns the null vector without advancing time, drops the waiting measurement and the inputs; the derived quantities (momenta rates, accelerations) can still be asked; after setOn(true) the estimation restarts from the null state.", "quantifier": "all reachable estimators", "why_tests_cant": "all call histories, argument evaluation orders", "anchors": ["src/model-base-ekf-flex-estimator-imu.cpp: getFlexibilityVector, setOn, getMomentaDotFromForces, getMomentaDotFromKinematics"]}
{"id": "C98", "title": "Guesses become the state of the estimator", "statement": "setFlexibilityGuess with a state vector, a pose vector or a homogeneous matrix makes it the state from which the next estimation starts and that is returned until then; setComBiasGuess changes only the bias; getForcesAndMoments returns the wrenches of the contacts.", "quantifier": "all reachable estimators, all guesses, all numbers of contacts", "why_tests_cant": "all call histories: the effect depends on cached predictions and on the vector returned last", "anchors": ["src/model-base-ekf-flex-estimator-imu.cpp: setFlexibilityGuess, setComBiasGuess, getForcesAndMoments", "src/ekf-flexibility-estimator-base.cpp: getPrediction"]}
{"id": "C96", "title": "One estimation of the elastic flexibility estimator is one step of the extended Kalman filter on the robot's model", "statement": "When a measurement waits, getFlexibilityVector predicts the state with the input of the previous time and the measurement with the input of the new time, linearises both by finite differences with the steps the client chose, corrects with the Kalman gain, brings the orientation back to a small angle and limits the forces; the time advances by one; the covariance becomes the posterior one and stays symmetric positive semidefinite; for usual parameters the call returns.", "quantifier": "all sequences of API calls, all states, inputs, measurements, covariances, numbers of contacts", "why_tests_cant": "equality with the textbook step for all states and inputs; cached predictions make it depend on the call history", "anchors": ["src/model-base-ekf-flex-estimator-imu.cpp: getFlexibilityVector", "src/extended-kalman-filter.cpp: prediction_, predictSensor_", "src/kalman-filter-base.cpp: oneStepEstimation_", "src/ekf-flexibility-estimator-base.cpp: useFiniteDifferencesJacobians"]}
{"id": "C99", "title": "The other outputs of the elastic flexibility estimator are those of the current estimate", "statement": "computeLocalObservationMatrix returns the blocks C and CA of the observability matrix; getSimulatedMeasurement returns the measurement of the current state with the current input and changes nothing; computeAccelerations and the rates of the momenta are those of the current state and the current input.", "quantifier": "all reachable estimators, both orders of evaluation of the arguments", "why_tests_cant": "a test runs one order of evaluation, one compiler", "anchors": ["src/model-base-ekf-flex-estimator-imu.cpp: computeLocalObservationMatrix, getMomentaDotFromForces, getMomentaDotFromKinematics", "include/state-observation/flexibility-estimation/model-base-ekf-flex-estimator-imu.hpp: computeAccelerations", "src/ekf-flexibility-estimator-base.cpp: getSimulatedMeasurement"]}
{"id": "C100", "title": "The offline flexibility estimation is one run of the estimator with the period given", "statement": "offlineEKFFlexibilityEstimation returns the guess one time before the first measurement followed by the estimates of an extended Kalman filter on fixed contacts with the sampling period given by the caller and the fixed covariances of the function; when the caller gives arrays for the corrections and the predicted measurements they hold them at their times; without inputs it is the same with null inputs.", "quantifier": "all measurements and inputs of any length, all first times, guesses, contacts, periods, with or without the output arrays", "why_tests_cant": "equality with the filter run for all data; the test uses only the default period", "anchors": ["include/state-observation/examples/offline-ekf-flexibility-estimation.hxx: offlineEKFFlexibilityEstimation"]}
{"id": "C101", "title": "The offline attitude estimation is one run of the extended Kalman filter on the measurements and the previous inputs", "statement": "imuAttitudeTrajectoryReconstruction returns the guess one time before the first measurement followed by one estimate per measurement, those of an extended Kalman filter with the covariances and period given, on the motion of the unit with the input of the time before each measurement, with Jacobians by forward differences of step 1e-8 and the orientation vector kept below 3π/2 after each correction; the input at the last time is not used; without inputs it is the same with null accelerations; the only failure is an orientation vector of more than four billion turns.", "quantifier": "all measurements and inputs of any length, all first times, guesses, positive semidefinite P and Q, positive definite R, periods", "why_tests_cant": "equality with the filter run for all data", "anchors": ["include/state-observation/examples/imu-attitude-trajectory-reconstruction.hxx: imuAttitudeTrajectoryReconstruction", "src/extended-kalman-filter.cpp: getAMatrixFD, getCMatrixFD", "src/imu-dynamical-system.cpp: stateDynamics, measureDynamics"]}
{"id": "C102", "title": "The offline attitude estimation with quaternions is one run of the multiplicative Kalman filter", "statement": "imuMultiplicativeAttitudeReconstruction, from a guess with a unit quaternion, always ends and returns the guess one time before the first measurement followed by one estimate per measurement, those of a multiplicative extended Kalman filter with the covariances and period given whose Jacobians are the derivatives of the motion and of the measurement; every quaternion returned is a unit one; without inputs it is the same with null accelerations.", "quantifier": "all measurements and inputs of any length, all first times, guesses with a unit quaternion, positive semidefinite P and Q, positive definite R, periods", "why_tests_cant": "equality with the filter run for all data, derivatives on the group of rotations", "anchors": ["include/state-observation/examples/imu-multiplicative-attitude-reconstruction.hxx: imuMultiplicativeAttitudeReconstruction", "src/imu-mltpctive-dynamical-system.cpp: getAMatrix, getCMatrix, stateSum"]}
{"id": "C103", "title": "The estimate of the kinetics observer is what has been set, and the getters read it", "statement": "After setGyroBias, setStateUnmodeledWrench, setStateVector, setStateKinematics or addContact the component concerned of getCurrentStateVector has the value given (whatever the representation of the orientation) and every other component is kept; calls that are not made to change the estimate keep it; getKinematics always agrees with the state vector, getUnmodeledWrench, getContactWrench and getContactPosition read their component, only for contacts that are there, and getKinematicsOf composes the kinematics of the estimate with those given.", "quantifier": "all histories of calls, numbers of contacts and IMUs, values", "why_tests_cant": "all histories and all components at once; no test of the setters", "anchors": ["src/kinetics-observer.cpp: setStateKinematics, setGyroBias, setStateUnmodeledWrench, setStateVector, addContact, getKinematics, getKinematicsOf, getContactPosition, getContactWrench, getUnmodeledWrench"]}
{"id": "C104", "title": "The estimator uses the pose and the gains given to addContact", "statement": "The pose given to addContact is the initial guess of the pose of the contact in the estimation, and each viscoelastic gain given is used, the default value being used for the ones left at zero.", "quantifier": "all histories of calls, poses, covariances, gains, data", "why_tests_cant": "effect on the next estimation for all states; no test checks the estimated contact pose or the gains", "anchors": ["src/kinetics-observer.cpp: addContact, update", "include/state-observation/dynamics-estimators/kinetics-observer.hpp: addContact"]}
{"id": "C105", "title": "Every parameter of the kinetics observer has the value given last", "statement": "After any history of calls the sampling time, the mass, the additional force and torque, the option of the unmodeled wrench, the way the Jacobians are computed, the step of the differences, the default covariances of the sensors and the default initial covariances have the value of the last call of their own setter, and the one of the constructor before any; the default gains of the contacts and process covariances never change.", "quantifier": "all histories of calls", "why_tests_cant": "frame conditions of all calls on all parameters", "anchors": ["src/kinetics-observer.cpp: setSamplingTime, setMass, setAdditionalWrench, setIMUDefaultCovarianceMatrix, resetSensorsDefaultCovMat, setFiniteDifferenceStep, setContactInitCovMatDefault"]}
{"id": "C106", "title": "The prediction of the kinetics observer: kinematics, constant components, spring and damper at the contacts", "statement": "For a client that can ask for an estimation, the predicted state exists; its kinematics are those of the estimate moved during one sampling time with the accelerations that estimateAccelerations gives for it; the gyrometer biases, the unmodeled wrench and the rest poses of the contacts are kept; the predicted force and torque of each contact are those of its spring and damper between the pose of the contact (the robot's predicted pose composed with the pose of the contact in the robot) and its rest pose in the state, with the gains of the contact.", "quantifier": "all histories of calls of such a client, state vectors, numbers of contacts and IMUs, gains", "why_tests_cant": "all states and histories; the test of the observer only checks that the residual of the filter is small, with the same model on both sides", "anchors": ["src/kinetics-observer.cpp: stateDynamics, update"]}
{"id": "C107", "title": "The flexibility matrix is the pose of the flexibility vector", "statement": "For the estimators with fixed and with elastic contacts, getFlexibility makes the same estimation as getFlexibilityVector, leaves the estimator in the same state, and returns the homogeneous matrix with the translation at the entries 0 to 2 and the rotation of the rotation vector at the entries 3 to 5 of the vector returned by getFlexibilityVector; it returns exactly when getFlexibilityVector does, and the identity before any measurement.", "quantifier": "all histories of calls, data and options", "why_tests_cant": "all histories; no test compares both outputs", "anchors": ["src/model-base-ekf-flex-estimator-imu.cpp: getFlexibility", "src/fixed-contact-ekf-flex-estimator-imu.cpp: getFlexibility"]}
{"id": "C109", "title": "The kinetics observer estimates the gyrometer biases and the rest poses of the contacts", "statement": "The biases of the gyrometers and the rest poses of the contacts, which are components of the state with their own initial and process covariances, are corrected by the measurements: an estimation whose innovation is not zero changes them, and a constant bias of a gyrometer ends up in the estimate. (The code does not do it: in every execution each bias is the one that the client gave last, or zero, and no update changes a rest pose that is in the filter, whatever the measurements.)", "quantifier": "all histories of calls (with covariances that do not relate these components to the others, as the default ones), measurements, numbers of estimations, of contacts and of IMUs", "why_tests_cant": "all histories and measurements; a test that checks convergence of the pose does not look at the biases", "anchors": ["src/kinetics-observer.cpp: update, measureDynamics, stateDynamics"]}
{"id": "C108", "title": "The measurement that the kinetics observer predicts is what the sensors would measure in the state", "statement": "For every state vector with a unit quaternion, the measurement that an estimation compares with the signals contains, in the order of the signals: for each IMU of the iteration, the acceleration of the origin of the sensor (second derivative of its position when robot and sensor move with the given kinematics, the accelerations of the robot being the ones estimateAccelerations() gives for the state) and the gravity, in the frame of the sensor, then its angular velocity in the same frame plus the bias of the gyrometer in the state; for each contact with a force sensor, the wrench of the contact in the state. The prediction returns for every client that can make an estimation. (The biases are not added by the code: the rest holds.)", "quantifier": "all reachable observers, state vectors with unit quaternion, kinematics of IMUs, numbers of IMUs and contacts", "why_tests_cant": "all kinematics of robot and sensors: wrong frames or missing Coriolis terms vanish for sensors at rest at the origin, with which the tests are made", "anchors": ["src/kinetics-observer.cpp: measureDynamics, update, estimateAccelerations"]}
{"id": "C110", "title": "Inputs of the kinetics observer given without their derivatives are differentiated", "statement": "When the centre of mass, its velocity, the angular momentum or the inertia is given without its derivative, the derivative used by the estimation is the difference quotient between the value given and the value given in the last earlier iteration, over the sampling time multiplied by the number of iterations between the two; derivatives given by the user are used as given; no other call changes them. (The code fails for the first values, and for values corrected in the same iteration.)", "quantifier": "all histories of calls, values, numbers of iterations between two values, sampling times", "why_tests_cant": "the result depends on the whole history of calls: which iteration the last value was given in, how many updates followed", "anchors": ["src/kinetics-observer.cpp: setInertiaMatrix, setCenterOfMass, setAngularMomentum, startNewIteration_"]}
{"id": "C111", "title": "The offline estimation of a flexibility with elastic contacts is the online estimation", "statement": "offlineModelBaseFlexEstimation returns, for every time of the measurements, what a new model-base flexibility estimator answers when it is given the parameters of the call, the guess, and then at every time the number of contacts, the measurement, the input and the covariances of this time; it returns whenever this estimator answers. The answers are those of the extended Kalman filter on the elastic model with the parameters given (prediction, innovation, predicted and simulated measurement), and they are stored at the times of the measurements. (The code stores the estimates at other times when the first time is negative, and ignores the force part of a constant covariance of the measurements.)", "quantifier": "all arguments, lengths of the arrays, first times, changes of the number of contacts and of the covariances, requested outputs", "why_tests_cant": "the result depends on the whole history of data: the changes of contacts clear stored inputs and resize the covariances", "anchors": ["include/state-observation/examples/offline-model-base-flex-estimation.hxx: offlineModelBaseFlexEstimation"]}
{"id": "C112", "title": "Matrices and vectors printed to text are read back", "statement": "stringToMatrix(matrixToString(m), rows, cols) is m up to the text of its coefficients; with other sizes the coefficients are taken line after line and those that are missing are zero; stringToVector(vectorToString(v)) has as many components as v and the same values; with a size it is cut or completed with zeros; printing again gives the same text. (In the code a coefficient that is not finite, and every coefficient after it, is read as zero.)", "quantifier": "all sizes, matrices, vectors, widths of the printed numbers, ways of printing and reading one number", "why_tests_cant": "all sizes and all alignments of the columns; the behaviour after the first unreadable number", "anchors": ["src/definitions.cpp: matrixToString, vectorToString, stringToMatrix, stringToVector"]}
{"id": "C113", "title": "Previous version of the update of kinematics", "statement": "update_deprecated never fails; the flagged fields are set afterwards and the others are unchanged; given fields are copied; a pose that is not given moves with the previous velocity and acceleration; a velocity that is not given is the one that leads from the known pose to the new one, else it follows the previous acceleration; an acceleration that is not given leads from the known velocity to the new one, else it is kept; what is not known becomes zero; without new values it agrees with integrate; the linear velocity is the one of update (the acceleration can differ).", "quantifier": "all kinematics objects, new values, flags, time steps", "why_tests_cant": "64 sets of flags times the fields that are set on both sides, all values", "anchors": ["include/state-observation/tools/rigid-body-kinematics.hxx: Kinematics::update_deprecated"]}
{"id": "C114", "title": "Integration by the method of Runge and Kutta", "statement": "A call of iterateDynamicsRK4 is one step of the method of Runge and Kutta of order four for the equations of Newton and Euler of the robot under the given wrenches: same stages, same weights, orientations composed one after the other; the orientation vector given is the one of the orientation reached, not longer than pi; the contact wrenches given are those of the springs and dampers in the state reached; without contacts and with the centre of mass at the origin of the frame, position and velocity are exact; with a mass, a positive definite inertia and at most two contacts the call returns.", "quantifier": "all reachable systems, inputs with a symmetric inertia, wrenches, states, durations", "why_tests_cant": "no test calls the function; an error at one of the four stages changes the result by little", "anchors": ["src/imu-elastic-local-frame-dynamical-system.cpp: iterateDynamicsRK4"]}
{"id": "C115", "title": "Random rotations, angles and numbers", "statement": "randomRotationQuaternion gives a unit quaternion (unless the four numbers drawn are zero); if the numbers drawn are independent and have the standard normal law, the quaternion and its rotation are uniformly distributed: the law does not change when the rotation is composed on either side with any fixed rotation, and there is only one such law; randomAngle and getUniformScalar give numbers that are uniformly distributed in [-pi, pi) and [min, max); getGaussianScalar gives a number with the normal law of the given mean and standard deviation.", "quantifier": "all draws; all laws of probability spaces with independent standard draws; all fixed rotations, intervals, means, standard deviations", "why_tests_cant": "a statement about a law of probability; samples cannot settle it", "anchors": ["include/state-observation/tools/rigid-body-kinematics.hxx: randomRotationQuaternion, randomAngle, zeroRotationQuaternion", "src/probability-law-simulation.cpp: getGaussianScalar, getUniformScalar"]}
{"id": "C116", "title": "The estimate of the linear Kalman filter is the best one", "statement": "When the initial state has the mean and covariance given to the filter and the process and measurement noises have mean zero and the covariances Q, R given to it, all mutually uncorrelated, the error of the estimate at every time has mean zero, its covariance is the one stored by the filter, and no affine function of the measurements used has a smaller mean square error in any direction. If they are jointly Gaussian, the error is Gaussian and independent of the measurements, the estimate is the conditional expectation of the state given the measurements, and no measurable function of the measurements has a smaller mean square error.", "quantifier": "all probability spaces, all sizes, all time-varying models and inputs, all numbers of steps, all affine (or measurable) estimators, all directions", "why_tests_cant": "optimality among all estimators and a statement about expectations over all runs", "anchors": ["src/kalman-filter-base.cpp: oneStepEstimation_", "src/linear-kalman-filter.cpp: prediction_, simulateSensor_, setA ... setD"]}
{"id": "C117", "title": "The linear Kalman filter forgets its initial estimate and finds the state", "statement": "For a constant model with positive definite covariances Q and R that some estimator with a constant gain can observe (an error that vanishes): driven by a system without noise, the error of the estimate of the filter decreases at least geometrically, at a rate that depends on the model and the initial covariance only; two filters with different initial estimates and the same data (any data) converge to each other; the stored covariance converges, from any initial covariance, to the unique covariance that a step of the filter does not change.", "quantifier": "all sizes, all such models (including unstable ones), all initial estimates, states and covariances, all inputs and data, all numbers of steps", "why_tests_cant": "a limit for an infinite run and a uniform rate for all initial conditions", "anchors": ["src/kalman-filter-base.cpp: oneStepEstimation_", "src/linear-kalman-filter.cpp: prediction_, simulateSensor_"]}
{"id": "C118", "title": "The LIPM estimators find the DCM and the bias", "statement": "Given at every sampling time the true DCM of the discretised pendulum plus a bias that is constant in the frame of the robot, the ZMP and the orientation, each followed by an update, without limit on the bias and with nonzero standard deviations, the squared error of the estimated DCM and bias decreases at least geometrically, at a rate that depends only on the parameters and the stored covariance. The same for the one-dimensional estimator with a constant bias.", "quantifier": "all positive natural frequencies and sampling times, all nonzero standard deviations, all motions of the ZMP, all rotations of the robot, all biases, all initial estimates and states reached by calls, all numbers of periods", "why_tests_cant": "convergence for an infinite run, for an unstable system and a time-varying model, uniformly in the motion", "anchors": ["src/lipm-dcm-estimator.cpp: setInputs, update", "src/unidim-lipm-dcm-estimator.cpp: setInputs", "include/state-observation/dynamics-estimators/unidim-lipm-dcm-estimator.hpp: update"]}
{"id": "C119", "title": "Pessimistic covariances are safe", "statement": "If the initial error and the noises of a linear system are at most as large as the covariances given to the linear Kalman filter (the initial error may have a bias), then at all times the mean square error of the estimate, in every direction, is at most the one announced by the covariance the filter stores. The stored covariance increases with each of the covariances given (initial, process, measurement), and it is larger for a filter that is given only a part, or linear combinations, of the measurements.", "quantifier": "all systems (time-varying), all laws of the initial state and of uncorrelated noises, all sizes, all inputs, all numbers of steps; all ordered pairs of covariances; all selections of measurements", "why_tests_cant": "statement on a probability law and on an order of matrices, for runs of any length", "anchors": ["src/kalman-filter-base.cpp: oneStepEstimation_", "src/linear-kalman-filter.cpp", "include/state-observation/observer/kalman-filter-base.hpp: setQ, setR, setStateCovariance"]}
{"id": "C120", "title": "The tilt estimator finds the tilt", "statement": "For a robot in uniform translation with a sensor that does not rotate, measured again and again, with a positive sampling time: the estimates of the velocity and the intermediate estimates of the tilt converge to the true ones from every initial state if and only if beta > 0, g beta dt < alpha and 2 alpha dt < 4 + g beta dt^2; they converge geometrically then. If also 0 < gamma dt < 2, the estimate of the tilt converges to the tilt or to its opposite; to the tilt when the other two estimates are close enough to the truth with respect to the distance from the opposite direction, and from every direction but the opposite one when they are exact.", "quantifier": "all gains, sampling times, tilts, positions, orientations and constant velocities of the sensor, all initial states with a unit tilt, all numbers of measurements", "why_tests_cant": "limit of an infinite nonlinear run, and an exact domain of gains", "anchors": ["src/tilt-estimator.cpp: oneStepEstimation_", "include/state-observation/observer/tilt-estimator.hpp: setAlpha, setBeta, setGamma, setSamplingTime"]}
{"id": "C121", "title": "Coordinates, order and grouping of the sensors do not matter to the linear Kalman filter", "statement": "Writing the model of a linear Kalman filter in other coordinates (of the state: any matrices, time-varying, that intertwine the models; of the measurements: invertible matrices) gives the images of the estimates and covariances at all times. In particular the order of the components of the measurements does not matter. Two groups of sensors with independent noises may be used together or one after the other, with no process noise in between: the estimate and covariance are the same.", "quantifier": "all models, sizes, numbers of steps, inputs, measurements, changes of coordinates, permutations, groups of sensors", "why_tests_cant": "equality for all models and runs of any length", "anchors": ["src/kalman-filter-base.cpp: oneStepEstimation_", "src/linear-kalman-filter.cpp: prediction_, predictSensor_"]}
{"id": "C122", "title": "The DCM estimator does not depend on the directions of the horizontal axes", "statement": "Two DCM estimators with the same parameters, initialised by resetWithMeasurements on the same situation seen in horizontal axes turned or mirrored by U (positions, biases and orientations, all in the world frame; uncertainties equal in the two directions), then used in the same way: the DCM and bias estimates of the second are those of the first turned by U, and the local biases are the same.", "quantifier": "all parameters, all rotations and reflections, all sequences of calls", "why_tests_cant": "equality for all axes and histories of any length", "anchors": ["src/lipm-dcm-estimator.cpp: resetWithMeasurements, setInputs, update", "include/state-observation/dynamics-estimators/lipm-dcm-estimator.hpp: getLocalBias"]}
{"id": "C123", "title": "The functions integrateKinematics", "statement": "The four free functions integrateKinematics keep rotation matrices and unit quaternions valid; the quaternion and matrix versions agree; the versions without accelerations are the versions with accelerations 0; they agree with Kinematics::integrate on the same values; integrating over dt and then -dt gives back the starting values; for constant accelerations about a fixed axis the result is the exact motion.", "quantifier": "all positions, velocities, accelerations, orientations, dt", "why_tests_cant": "identities over all reals, including the solution of a differential equation", "anchors": ["include/state-observation/tools/rigid-body-kinematics.hxx: integrateKinematics"]}
{"id": "C124", "title": "The intermediate results of the last step of a linear Kalman filter", "statement": "After an estimation, getLastPrediction is A x + B u, getLastPredictedMeasurement is C times it plus D u', getLastGain is the Kalman gain, getInnovation is the gain times (measurement - predicted measurement) and is the estimate minus the prediction. getSimulatedMeasurement is C x + D u' of the new estimate, and asking for it changes nothing of what the other functions return, now or later.", "quantifier": "all sizes, models, inputs, measurements, later executions", "why_tests_cant": "all sizes and values, and all later executions", "anchors": ["src/kalman-filter-base.cpp: getLastPrediction, getLastPredictedMeasurement, getLastGain, getInnovation, getSimulatedMeasurement", "src/linear-kalman-filter.cpp: simulateSensor_"]}
{"id": "C125", "title": "The kinetics observer does not depend on the origin and on the heading of the world", "statement": "For two state vectors that describe the same situation in two world frames that differ by a translation and a rotation about the vertical, the dynamics predict states that describe the same situation in the two frames, and the predicted measurements of the IMUs and of the force sensors are equal.", "quantifier": "all numbers of contacts and IMUs, all clients, all states, all translations and headings", "why_tests_cant": "equality for all states and all changes of frame", "anchors": ["src/kinetics-observer.cpp: stateDynamics, measureDynamics, computeAccelerations_"]}
{"id": "C126", "title": "The tilt estimator does not depend on the axes of the sensor and of the control frame", "statement": "Two tilt estimators with the same gains, told the orientation of the sensor and then used in the same way, one with the IMU axes turned by a rotation V and the control frame by a rotation W (measurements, states, position, orientation and velocities of the sensor given in the turned axes): the calls succeed or fail alike, and the estimates of the second are those of the first turned by V.", "quantifier": "all gains, rotations and sequences of calls", "why_tests_cant": "equality for all rotations and histories of any length", "anchors": ["src/tilt-estimator.cpp: oneStepEstimation_", "include/state-observation/observer/tilt-estimator.hpp: setters"]}
{"id": "C127", "title": "The extended Kalman filter performs the textbook recursion for any functor, in any coordinates", "statement": "An extended Kalman filter with any dynamics functor, to which the matrices A, C, Q, R (any A and C), the inputs and the measurements are given at each sampling time, succeeds at every time and its estimate and covariance are those of the textbook recursion x' = F(x,u), P' = A P A^T + Q, K = P' C^T (C P' C^T + R)^-1, x' + K (y - H(x',u')), (1 - K C) P'. With the matrices of getAMatrixFD and getCMatrixFD and nonzero steps, A is the matrix of the difference quotients of F at the last estimate, C that of H at the predicted state. Two filters of the same system in different coordinates of state and measurement (or different orders of the sensors) have the same estimates and covariances, each in its coordinates.", "quantifier": "all sizes, functors, matrices, inputs, measurements, numbers of steps, changes of coordinates", "why_tests_cant": "equality for all nonlinear systems, sizes and histories", "anchors": ["src/extended-kalman-filter.cpp: prediction_, predictSensor_, simulateSensor_, getAMatrixFD, getCMatrixFD", "src/kalman-filter-base.cpp: oneStepEstimation_"]}
{"id": "C128", "title": "The matrices and vectors made by a Kalman filter fit it", "statement": "The matrices and vectors returned by the functions of a filter that make constant, random, zero and identity ones are accepted by its setters, whatever the sizes and the state of the filter. With the identity and zero matrices it makes, the estimate never changes and its covariance grows by the identity at each step.", "quantifier": "all sizes, all states of the filter, all constants and random draws, all inputs and measurements, any number of steps", "why_tests_cant": "all sizes, including tangent sizes different from the sizes of the vectors, and any number of steps", "anchors": ["src/kalman-filter-base.cpp: get*matrix*, *Vector*", "src/linear-kalman-filter.cpp 73-106", "src/observer-base.cpp"]}
{"id": "C129", "title": "A linear Kalman filter without inputs needs no input matrix", "statement": "A linear Kalman filter constructed without inputs, to which the matrices A, C, Q, R, a state, a covariance and a measurement for the next time were given, estimates the state at this time.", "quantifier": "all sizes, all matrices with positive semidefinite P and Q and positive definite R, all states, measurements and times", "why_tests_cant": "failure by assertion for all values; the existing tests always set B", "anchors": ["src/linear-kalman-filter.cpp 29-50"]}
{"id": "C130", "title": "The data of an iteration can be given to the kinetics observer in any order", "statement": "Between two updates, calls that give data for different sensors and inputs (IMUs and contacts with explicit numbers, absolute pose, centre of mass, angular momentum, inertia, in all their forms) can be made in any order: if they succeed in one order they succeed in any other, and all later estimates are the same.", "quantifier": "all observers in any state, all lists of such calls, all permutations", "why_tests_cant": "all permutations of all lists of calls, in all states", "anchors": ["src/kinetics-observer.cpp 503-855, 1287-1295"]}
{"id": "C131", "title": "The DCM estimator does not depend on the units of length and time", "statement": "Giving all the lengths (DCM, ZMP, bias, standard deviations, limits) in another unit of length and all the times (sampling period, natural frequency, drift per second) in another unit of time to the constructor and to all later calls gives the same estimates, in the other unit.", "quantifier": "all parameters, all sequences of calls, all changes of units", "why_tests_cant": "all sequences of calls and all scale factors", "anchors": ["src/lipm-dcm-estimator.cpp", "include/state-observation/dynamics-estimators/lipm-dcm-estimator.hpp"]}
{"id": "C132", "title": "Superposition for the linear Kalman filter", "statement": "The estimates of the linear Kalman filter depend linearly on the data: the estimate obtained from a combination of two initial estimates, two input sequences and two measurement sequences is the same combination of the two estimates, and the covariance does not depend on these data. In particular the effect of a disturbance of the data on the estimate is the estimate of a filter fed with the disturbance only.", "quantifier": "all sizes, matrices, numbers of iterations, initial estimates, inputs, measurements and coefficients", "why_tests_cant": "any number of iterations and any data", "anchors": ["src/linear-kalman-filter.cpp", "src/kalman-filter-base.cpp"]}
{"id": "C133", "title": "A noise given to the kinetics observer acts on its predictions", "statement": "After a derived class gives a process noise (setProcessNoise) or a measurement noise (setMeasurementNoise) to the kinetics observer, the state it predicts and the measurements it predicts are those of the noiseless functions with the noise added; after resetting the noise they are the noiseless ones.", "quantifier": "all noises, states, inputs and executions", "why_tests_cant": "any noise object and any state", "anchors": ["src/kinetics-observer.cpp", "include/state-observation/dynamics-estimators/kinetics-observer.hpp"]}
{"id": "C134", "title": "A printed kinematics can be read", "statement": "Printing a Kinematics on a stream never fails. In the text, after the label of each field stand the three numbers of the field if it is set (the rotation vector for the orientation), and no number if it is not; the text is \"empty kinematics\" exactly if nothing is set.", "quantifier": "all kinematics, with any subset of the fields set and the orientation in any representation", "why_tests_cant": "all subsets of fields and all values", "anchors": ["include/state-observation/tools/rigid-body-kinematics.hxx"]}
{"id": "C135", "title": "The functions of the kinetics observer for derived classes", "statement": "A class derived from the kinetics observer that calls computeContactForces_ gets the force and the torque of the viscoelastic model of the contact, in the frame of the contact; a sensor extracts its own part of a measurement vector (extractFromVector).", "quantifier": "all contacts, kinematics, rest poses and gains; all vectors and sensors", "why_tests_cant": "all kinematics and gains; the functions are protected and never called by the class", "anchors": ["src/kinetics-observer.cpp", "include/state-observation/dynamics-estimators/kinetics-observer.hpp"]}
{"id": "C136", "title": "The origin of the time does not matter", "statement": "Giving an observer the same calls with all the time indexes moved by the same amount gives the same estimates and covariances at the moved times, and the same calls fail; for an extended filter the functor is moved too (or does not use the time).", "quantifier": "all sequences of calls, all offsets, all filters and data", "why_tests_cant": "all call histories and all offsets; the buffers carry indexes also when they are empty", "anchors": ["src/zero-delay-observer.cpp", "src/kalman-filter-base.cpp", "src/linear-kalman-filter.cpp", "src/extended-kalman-filter.cpp", "src/tilt-estimator.cpp"]}
{"id": "C137", "title": "The zero-moment point of the contacts", "statement": "The point that the zmp tool computes from the wrenches of the contacts (in their frames) and their poses is the zero-moment point of the contacts that push upwards: their moment about it has no horizontal component; it is in the support region when the centres of pressure are; it moves with the frame of the poses; without a pushing contact it is the origin.", "quantifier": "all wrenches, all poses, up to two contacts, all contents of uninitialised memory", "why_tests_cant": "real-valued wrenches and poses; the tool has no test, and agrees with the claim on a ground at height zero only", "anchors": ["misc-tools/zmpEstimation.cpp:computeZmp"]}
{"id": "C138", "title": "Splitting a log", "statement": "The file splitter writes, for every part of the logged inputs, measurements and states, a file with this part at the same time indexes, and for every contact the number of contacts and the values of this contact.", "quantifier": "all logs of any length and any first index, all values, 0 to 2 contacts at each instant", "why_tests_cant": "logs of all lengths (the behaviour changes at 48 instants) and all patterns of contacts", "anchors": ["misc-tools/file-splitter.cpp"]}
{"id": "C139", "title": "Reading the measurements of two sensors", "statement": "The measurements that the attitude tester reads from the files of the accelerometer and of the gyrometer are those of the instants where both have measured, at these instants; reading stops where the indexes of the two files differ.", "quantifier": "all lengths of the two files, all values, all first indexes, all contents of the uninitialised variables", "why_tests_cant": "files of any length, and the result must not depend on uninitialised memory", "anchors": ["misc-tools/IMU-Observation-tester.cpp:getMeasurements"]}
{"id": "C140", "title": "The sign of the quaternions of the state of the kinetics observer", "statement": "A quaternion and its opposite are the same orientation: the state, and the measurements, that the kinetics observer predicts from a state vector do not depend on which of the two is in the vector, for the robot and for the rest poses of the contacts.", "quantifier": "all numbers of contacts and of IMUs, all clients that can ask for an estimation, all pairs of state vectors that differ only by the signs of their quaternions", "why_tests_cant": "all states and all sequences of calls; the tests never give the opposite quaternion", "anchors": ["src/kinetics-observer.cpp:stateDynamics", "src/kinetics-observer.cpp:measureDynamics", "include/state-observation/tools/rigid-body-kinematics.hxx:Orientation::setToProductNoAlias"]}
{"id": "C141", "title": "Inertial measurements predicted by the systems of an inertial measurement unit", "statement": "Without measurement noise, the measurement that the systems of an inertial measurement unit predict is that of an accelerometer and a gyrometer: in the frame of the sensor, the acceleration of the sensor plus gravity, then its angular velocity, then the magnetic field if there is a magnetometer. The sensor moves as the state says; for the systems with fixed contacts it moves in a frame as the input says, and the frame moves as the state says.", "quantifier": "all four classes, all sequences of calls before, all states, inputs and times, all motions that have these values at an instant", "why_tests_cant": "all motions and all states; the accelerations of Coriolis and of the centrifugal force vanish in the states that tests use", "anchors": ["src/imu-fixed-contact-dynamical-system.cpp:measureDynamics", "src/stable-imu-fixed-contact-dynamical-system.cpp:measureDynamics", "src/imu-dynamical-system.cpp:measureDynamics", "src/imu-magnetometer-dynamical-system.cpp:measureDynamics"]}
{"id": "C142", "title": "Predictions of the systems of an inertial measurement unit", "statement": "Without process noise, the state that the systems of an inertial measurement unit predict has the pose and the velocities of a motion with constant accelerations during the last sampling period that was set: the accelerations of the state, or those of a spring that pulls to the origin for the stable system. The accelerations of the next state are the input, zero, those of the state or those of the spring, according to the class. A process noise is applied to that state.", "quantifier": "all four classes, all sequences of calls before, all states, inputs and noises", "why_tests_cant": "all states and all past calls; the caches and the parameters depend on the past", "anchors": ["src/imu-dynamical-system.cpp:stateDynamics", "src/imu-magnetometer-dynamical-system.cpp:stateDynamics", "src/imu-fixed-contact-dynamical-system.cpp:stateDynamics", "src/stable-imu-fixed-contact-dynamical-system.cpp:stateDynamics"]}
{"id": "C143", "title": "Stability of the system that is called stable", "statement": "Iterated without process noise, the position and the linear velocity that the stable system predicts tend to zero from every state exactly when the sampling period is below 0.08 s.", "quantifier": "all positive sampling periods, all initial states, all inputs, infinite sequences of predictions", "why_tests_cant": "a limit over infinite executions, for all sampling periods and states", "anchors": ["src/stable-imu-fixed-contact-dynamical-system.cpp:stateDynamics"]}
{"id": "C144", "title": "Predictions of the inertial unit with a multiplicative state", "statement": "Without noise, the inertial unit with a quaternion in its state predicts the pose and the velocities of a motion with constant accelerations during the last sampling period that was set, then the accelerations of the input, with a unit quaternion; the squared norm of the predicted quaternion is within 1e-6 of one whatever non-null quaternion is given; the predicted measurement is that of an accelerometer and a gyrometer carried by the body.", "quantifier": "all sequences of calls before, all states, inputs and times, all motions with these values at an instant", "why_tests_cant": "all states and motions; the norm is tested only along one trajectory", "anchors": ["src/imu-mltpctive-dynamical-system.cpp:stateDynamics", "src/imu-mltpctive-dynamical-system.cpp:measureDynamics"]}
{"id": "C145", "title": "Repeated predictions of an inertial unit follow the exact motion", "statement": "Without process noise, predictions repeated over any number of sampling periods, with a constant linear acceleration and an angular velocity and acceleration about a fixed axis, give the position, the velocities and the orientation of that motion at the end: there is no error of discretisation, whatever the sampling period.", "quantifier": "all numbers of steps, all sampling periods, all initial states, all calls between the predictions", "why_tests_cant": "all horizons; a test follows one trajectory and compares with a tolerance that hides a small drift", "anchors": ["src/imu-mltpctive-dynamical-system.cpp:stateDynamics", "src/imu-fixed-contact-dynamical-system.cpp:stateDynamics"]}
{"id": "C146", "title": "A filter that starts at the state of a simulation follows it", "statement": "A Kalman filter (linear, or extended with the same dynamics as the simulator, with Jacobians given or computed by finite differences) that starts at the state of a simulation and is given the inputs and the measurements that the simulator returns gives back the simulated states, at every time, whatever the covariances and the Jacobians.", "quantifier": "all systems, all dimensions, all numbers of steps, all inputs, all covariances and Jacobians", "why_tests_cant": "two classes together over all horizons; an offset of one in the time of an input or of a measurement is hidden by slow signals and by the noise of the tests", "anchors": ["src/dynamical-system-simulator.cpp:simulateDynamicsTo", "src/extended-kalman-filter.cpp:prediction_", "src/kalman-filter-base.cpp:oneStepEstimation_", "src/linear-kalman-filter.cpp"]}
{"id": "C147", "title": "The offline estimations of the attitude are exact on exact data", "statement": "From the true initial state, with the true accelerations as inputs and the measurements of an exact inertial unit, the offline estimations of the attitude, with a quaternion or with a rotation vector, return the true position, rotation, velocities and accelerations at every sampling time, whatever the covariances and the sampling period. The one with a rotation vector never refuses such data.", "quantifier": "all motions with accelerations constant during each period, all lengths of the record, all covariances, all sampling periods", "why_tests_cant": "all motions and horizons; the test of the repository compares one noisy trajectory with a tolerance", "anchors": ["include/state-observation/examples/imu-multiplicative-attitude-reconstruction.hxx:imuMultiplicativeAttitudeReconstruction", "src/imu-mltpctive-dynamical-system.cpp:stateDynamics", "src/imu-mltpctive-dynamical-system.cpp:stateSum", "include/state-observation/examples/imu-attitude-trajectory-reconstruction.hxx:imuAttitudeTrajectoryReconstruction"]}
{"id": "C148", "title": "The kinetics observer leaves a robot that stands still where it is", "statement": "When the estimate of the kinetics observer is a robot without velocity and without acceleration, standing on contacts that have the wrenches of their springs, and the IMUs measure the gravity and no rotation, an estimation does not change the pose of the robot nor the forces of its contacts.", "quantifier": "all numbers of contacts and of IMUs, all clients that may call update(), all such states and signals, all gains and covariances", "why_tests_cant": "all states, gains, covariances and sequences of calls before the estimation", "anchors": ["src/kinetics-observer.cpp:update", "src/kinetics-observer.cpp:stateDynamics", "src/kinetics-observer.cpp:computeContactForces_"]}
