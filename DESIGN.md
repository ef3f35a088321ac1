# Formal model of state-observation

Source: `/repo` (C++14, Eigen, boost). Model and proofs: Lean 4.33 + Mathlib in `/verif/lean`.

## 1. Conventions

* **Numbers.** `double` is modelled by `ℝ` (exact arithmetic). Rounding, overflow, NaN and infinities are *not*
  modelled, except where NaN is part of the control logic (there it is an explicit flag).
  Tolerances that the code compares against (`cst::epsilon1`, `quatNormTol`, ...) are kept as parameters.
* **Matrices.** Eigen matrices with run-time sizes are `Matrix (Fin n) (Fin m) ℝ` when the dimension checks are not
  the subject; where the checks are the subject (C14, C24, C53-C57) sizes are data.
* **Time.** `TimeIndex` (a `long`) is `ℤ`. Overflow is not modelled.
* **Containers.** `std::deque`, `std::vector` are `List`; `std::map` is an association list or function.
* **Assertions and undefined behaviour.** Operations return `Res α`: `ok a`, `assertFail` (a `BOOST_ASSERT` that
  fires in a checking build, and is undefined behaviour / a wrong result in a release build), `ub` (undefined
  behaviour that no assertion catches), `exn` (C++ exception). A theorem "the call succeeds" excludes all of them.
* **External code.** Eigen (`LLT`, `Quaterniond`, `AngleAxisd`, products) is modelled by its documented mathematical
  meaning: `LLT::solve`/inverse is the matrix inverse when the matrix is positive definite. Boost random generators are arbitrary
  inputs (the theorem quantifies over the drawn values).
* **User functors** are arbitrary functions, quantified over.

## 2. Layout of the Lean project

`Verif/<Area>/Model.lean` – the model, one definition per C++ function, each citing file and lines.
`Verif/<Area>/Lemmas.lean` – helper lemmas.
`Verif/<Area>/Props.lean` – the property theorems (named `Cxx_...`) with non-vacuity examples next to them and the
small specification they use (`Verif/<Area>/Spec.lean` when it needs definitions of its own).
`Verif/Axioms.lean` – fails the build if any declaration depends on another axiom than the three of section 4, then `#print axioms` for
the property theorems.

## 3. Plan per property

| id | model | proof |
|---|---|---|
| C01 C02 | `IndexedMatrixArrayT` = (k, list); operations | refinement to `ℤ → Option α` (finite window); induction over operation lists |
| C03 | setLastIndex / setFirstIndex | first index: equality. last index: **the code is wrong** (`k_=index-(size+1)`): negation + what it does |
| C04 | truncateAfter / truncateBefore | truncateAfter full; truncateBefore **wrong at t=last and t<first**: negation + partial |
| C05 | token streams | round trip by induction; without time stamp reading **appends an extra matrix**: negation + partial |
| C06 | CheckedItem | invariant over histories |
| C07 C08 C09 | ZeroDelayObserver generic in the one-step function | loop invariant, induction on number of steps; splitting lemma |
| C10 | setState | **clearing branch is dead code**: negation + partial |
| C11 | u_.popFront on empty deque | **violated**: negation; partial: p=0 or inputs provided |
| C12 C13 | set/push functions | characterisation; getInputTime asserts on the wrong buffer: negation + partial |
| C14 | dimension bookkeeping | case analysis |
| C15-C19 | KalmanFilterBase::oneStepEstimation_ on `Matrix` over ℝ | PosSemidef algebra, induction on histories; C19 for `update()` of the kinetics observer: from C85 and x + 0 = x (C60) |
| C20 | LinearKalmanFilter | unfolding + refinement to the textbook recursion over whole histories |
| C21 | EKF finite differences | algebra |
| C22 C23 | EKF prediction cache | **violated**: negation by witness; partial: if no prediction was cached for that time |
| C24 | dimension model | **violated when mt≠m**: negation + partial mt=m |
| C25-C30 | LipmDcmEstimator, UnidimLipmDcmEstimator | algebra in ℝ², induction over histories; several negations |
| C31-C33 | TiltEstimator | algebra in ℝ³; cross product orthogonality; negation for C32 |
| C34-C47 | rigid-body tools, Orientation | Rodrigues algebra, trigonometry, quaternions |
| C48-C52 | Kinematics | algebra; flags as Option |
| C53-C61 | KineticsObserver | index arithmetic; bookkeeping state machine; PSD block lemma; several negations |
| C62-C64 | DynamicalSystemSimulator | induction; negations |
| C65-C67 | sensors, noise | state machine with arbitrary noise source; Cholesky |
| C68 | Logger | map from addresses to recorded lists; negations |
| C69 C70 | scalar helpers | real arithmetic |
| C71-C73 | flexibility estimators and their functors | block matrices, cache invariant |
| C74 C75 | multiplicative IMU state Jacobian; finite differences of rotations | curve derivatives in SO(3) |
| C76 | setIMU without velocities | division by the elapsed time zero: negation |
| C77 | simulator continued from a given state | negation + partial |
| C78 | Logger::save | induction over the map, composed with the file round trip |
| C79 | isApprox | real arithmetic |
| C80-C83 | fixed-contact flexibility estimator: every public call, with the IMU/contact functor and the extended filter | invariant over call sequences, exact computation of one step, concrete witnesses for the negations |
| C84 | kinetics observer: the calls of a client that uses IMUs and contacts without sensors (what it knows from its own calls, KO/ClientSpec.lean) | simulation relation between the client and the observer, induction over the calls; liveness of every function called by update(); an automatic contact number is the first free one |
| C85 | one update() of the kinetics observer | refinement of the calls on the filter to the textbook step (Kalman/Spec), over the invariants of reachable states |
| C86 | elastic pendulum | derivative of the angular momentum on motions through the state; the Coriolis term of the code is wrong: negation, and the states where it holds |
| C87 | robot on elastic contacts: accelerations | Newton and Euler on arbitrary motions through the state, for every reachable system; three contacts: negation |
| C88 | robot on elastic contacts: momentum rates | same motions; the rates of the code use a constant mass: negation, and the case of that mass |
| C89 | contact and rope forces | separate specification of one visco-elastic contact; symmetry, dissipation; negations for three contacts and for the moment of the ropes; gains and other parameters are those given last (`Elastic/SettingsProps.lean`) |
| C90 | one step of the elastic system | exact effect of the step on every component; negations with process noise |
| C91 | predicted measurement of the elastic system | second derivative of the place of the sensor on an arbitrary motion; wrenches and drifted pose; negations (first call, noise, third contact) |
| C92 | Jacobians of the elastic system | each column against the dynamics at the perturbed state, through the caches; exactness of the identity columns, negation for the unmodeled forces |
| C93 | measurement noise covariance of the elastic flexibility estimator | options as a fold over the calls, invariant over all calls, coefficients after each change of size; negations with uninitialised memory |
| C94 | process noise and state covariance of the same estimator | invariant over all calls; for the options: invariant that the rows of the options stay null and the Jacobians do not couple them |
| C95 | limits of forces and torques | the estimation with other limits saturates the same vector; negations for the second contact and for the torques |
| C97 | estimator switched off | exact effect of the call from every reachable state |
| C98 | guesses, forces and moments | exact effect of the calls; the estimation after a cached prediction does not read the state |
| C96 | one estimation is one step of the extended Kalman filter | the caches of the filter and of the functor are proved to be those of this step; Jacobians column by column from the model of the robot; covariance invariant over all sequences of calls that give semidefinite covariances; return for usual parameters; case for arbitrary covariances |
| C99 | observation matrix, simulated measurement, accelerations and momenta | exact result of the calls, both orders of evaluation of the arguments as a parameter |
| C100 | offline flexibility estimation | loop over the measurements on the estimator of C82, refined by induction to an inductively defined run of the extended Kalman filter; arrays as in C01 |
| C101 | offline attitude estimation | same, directly on the extended filter with the functor of the inertial unit; generic lemmas for a filter driven by inputs (`Offline/Drive.lean`) |
| C102 | offline attitude estimation with quaternions | same with the analytic Jacobians: the run asks for the derivatives along curves of states (above 1e-16), not for the formulas |
| C103 | setters and getters of the state | specification by components of the state vector (`KO/StateSpec.lean`), invariants over all histories |
| C104 | pose and gains of `addContact` | the estimation commutes with erasing the poses of the contacts and the state vector of the observer (`KO/PoseErase.lean`), hence the negation for every pose and every data; the part that holds by an invariant on the state of the filter |
| C105 | parameters | frame of every call on the record of the parameters, induction over the history |
| C106 | prediction of the kinetics observer | value of the prediction for every client of C84 in a state where it may estimate (`KO/Predict.lean`), separate specification of the spring and damper (`KO/PredictSpec.lean`); negation for the wrench of the contacts and the exact condition under which the predicted force is right |
| C107 | `getFlexibility` of both estimators | separate specification of the homogeneous matrix of a pose, equivalence with `getFlexibilityVector` for all reachable estimators |
| C108 | `measureDynamics` after the packing of `update` | separate specification: the acceleration of a point mounted on a moving body, accelerometer, gyrometer; value of the predicted vector for all reachable observers (places of the sensors by induction over the lists), link to derivatives of motions, negation for the bias |
| C109 | biases and rest poses in `update` | dynamics and sensors do not read these components (two runs side by side), so the finite-difference Jacobians have no terms between them and the others; the covariances keep none (invariant over all the calls), so the rows of the gain are zero; hence the negation for every execution |
| C110 | `setInertiaMatrix` (4 forms), `setCenterOfMass` (3), `setAngularMomentum` (2) | separate specification on the list of calls only: clock of the history and last call that gives a quantity; frame of every call on the inputs, clock of the observer = clock of the history by induction; negations for the first value and for a value corrected in the same iteration |
| C111 | `offlineModelBaseFlexEstimation` | specification = list of calls of a client of the online estimator (`before`, `ask`), equivalence of the loop with these calls by induction on the data; then induction with the invariant of C96 to a run of the extended Kalman filter written independently (`ModelRun`); negations for negative first times and constant covariances with forces |
| C112 | `matrixToString`, `vectorToString`, `stringToMatrix`, `stringToVector` (2 forms) at the level of characters (`Verif/Text`); printing and reading of one number are parameters | the text is a sequence of words separated by blanks (inductive relation), readings by induction on the words; index arithmetic line after line; negation for numbers that cannot be read |
| C113 | `Kinematics::update_deprecated` (`Kin/DepModel`) | the value of each field as a function of the known values, by cases on the fields that are set; equations of motion; comparison with `integrate` and with `update` |
| C114 | `iterateDynamicsRK4` (`Elastic/RK4Model`) | the accelerations of each stage obey the equations of Newton and Euler (as C87), the stages are those of `RungeKutta` in `Elastic/RK4Spec`; the claim fails because of the third stage, with a case |
| C115 | `randomRotationQuaternion`, `randomAngle`, `zeroRotationQuaternion`, `getGaussianScalar`, `getUniformScalar` (`Noise/RandomModel`); the numbers drawn are arguments | invariance of the Gaussian measure under orthogonal matrices; the multiplication by a unit quaternion is one; uniqueness of the invariant law by Fubini |
| C116 | `LinearKalmanFilter` driven through its interface (as C17, C20) by a system whose initial state and noises are random vectors (`Kalman/OptimalSpec`) | induction on time: the error is uncorrelated with the noises to come and with the measurements used, because of the definition of the gain; Pythagoras; for Gaussian vectors, uncorrelated means independent |
| C117 | `LinearKalmanFilter` driven through its interface (as C17, C20) with a constant model | the covariance is at most that of any other gains (optimality), hence bounded (a Lyapunov matrix of the constant gain); the weighted error decreases by a fixed factor at each step; the difference of two covariances is the product of the two error transitions |
| C118 | `LipmDcmEstimator`, `UnidimLipmDcmEstimator` (model of C25-C30), driven by the discretised pendulum and a bias that turns with the robot | explicit gains that find DCM and bias in two periods, bounded uniformly in the rotations, bound the covariance; then the decrease of C117 for time-varying models |
| C119 | the linear Kalman filter (model of C20), driven by a linear system with noises bounded by the covariances given | induction over the steps: the update in Joseph form is monotone in the prior and in the noises, and the gain of the filter is the least of all gains |
| C120 | the tilt estimator (model of C31-C33) with constant measurements of a robot in uniform translation | a quadratic form that decreases over two steps for the linear part, eigenvectors and determinant for the converse; the cosine between estimate and tilt increases up to a summable perturbation |
| C121 | the linear Kalman filter (model of C20), two or three filters side by side | the gain is the only solution of its normal equation; the transformed or composed gain solves it; induction over the steps |
| C122 | the DCM estimator (model of C25-C30), two runs side by side | the change of axes maps one filter to the other (C121), induction over the calls; false with limits on the bias: a concrete run |
| C123 | the four functions `integrateKinematics`, over the model of rotations | algebra of rotations, derivative of the exponential; agreement with the model of `Kinematics::integrate` (C48-C52) |
| C124 | the linear filter (model of C20) with its getters | unfolding one cycle, then C20 for the later estimates; the predicted measurement is overwritten by the simulated one: a concrete run |
| C125 | two evaluations of the prediction and of the predicted measurement of the kinetics observer (models of C106, C108) | values of C106 and C108, rotations commute with cross products and exponentials; false for the wrenches of the contacts, with the exact difference of the forces |
| C126 | two runs of the tilt estimator (model of C31-C33) | the change of axes maps every state of one estimator to a state of the other (`ZeroDelay/Map.lean`: every function of the base class commutes with a renaming of its vectors), induction over the calls |
| C127 | the model of C21, functor arbitrary | one cycle of calls is computed symbolically (predictions not stored yet, or stored by the finite differences), induction over the cycles; coordinates: the gain is the only solution of its normal equation |
| C128 | the functions of the filters that make matrices and vectors, with the setters of C20 | sizes; cycles with neutral matrices refine those of C20, induction on the number of steps |
| C129 | the life of a linear filter without inputs from its construction to its first estimation | false: symbolic execution of the call stops on the assertion on `B`; with any accepted `B` (it has no entries) the step of C20 |
| C130 | the setters of the sensors and inputs of the kinetics observer (model of C55-C57, C110) | each call reads and writes its own part of the observer after `startNewIteration_`, so that two of them commute; induction on the permutation |
| C131 | the two-dimensional DCM estimator (model of C26-C30) | the reduced view of the estimator scales with the units (covariances with the square of the length), call by call; the linear filter step is homogeneous |
| C132 | the linear Kalman filter (model of C20-C24) run with the data of each iteration | by induction over the iterations: the gain does not depend on the data, the corrected state is linear in state, input and measurement |
| C133 | the two functions of the observer with the noise pointers, in front of the state function and the measurement function already modelled | the returned values do not depend on the noise; the claim is refuted by a noise that changes its argument |
| C134 | the stream operator of `Kinematics` (`Kin/PrintModel`), on the model of printed vectors of C112; the printing of one number is a parameter | the labels are found in the text because the characters of the numbers are not letters of the labels; the columns are read with the reading function of C112 |
| C135 | `computeContactForces_` and `Sensor::extractFromVector` (`KO/HelperModel`) on the model of kinematics | from the value of the product of kinematics (C48); the torque and the extracted part are refuted by examples |
| C136 | the models of `ZeroDelayObserver`, of the Kalman filters and of the tilt estimator; two observers related by `Shifted` (`ZeroDelay/ShiftSpec`) | simulation: every call keeps the relation, induction on the calls; refuted for filters that do not read the inputs they are declared to have |
| C137 | `Tools/ZmpModel`: `computeZmp`; spec `Tools/ZmpSpec`: force and moment of a wrench given in a moving frame | sums over the contacts that push; convexity for the support; refuted when the contacts are not at height zero |
| C138 | `Tools/SplitModel`: the three loops of the file splitter over indexed arrays of vectors; spec `Tools/SplitSpec`: rows by their parts | induction on the log with the columns written so far as invariant; refuted for the contacts in the inputs and for the file of the bias |
| C139 | `Tools/ReadModel`: `getMeasurements` and `getTrajectory` over the streams of `IndexedArray/File` with the flag of the end of the file; uninitialised variables are arguments | induction on the lines; refuted when the file of the gyrometer is shorter |
| C140 | `stateDynamics` and `measureDynamics` (as in C106, C108) on two state vectors with equal or opposite quaternions (`KO/SignSpec`) | C125 with the world not moved; the quaternion that each orientation holds followed through products, inverses and the integration (`KO/SignLemmas`); refuted for the torques of the contacts |
| C141 | `measureDynamics` of the four classes of `Imu/Model` after any calls; the specification is the second derivative of the position of the sensor and the angular velocity of its frame, for moving frames (`Motion` of `Kin/Spec`) | the cache-free form of C72 and C66, then derivatives of the composed motion and their uniqueness; `Kin/MotionExists` shows that every state is that of some motion |
| C142 | `stateDynamics` of the four classes of `Imu/Model` after any calls; the specification (`Imu/StepSpec`) is the motion with constant accelerations, and the period and the noise as the calls set them | the cache-free form of C72, the segments of the vectors, C34 and C35 for the orientation; induction on the calls for the parameters |
| C143 | sequences of predictions of the stable class (`Predicted` of `Imu/StepSpec`) | a quadratic form that each step multiplies by the determinant of the step, definite below 0.08 s; above, two sequences whose determinant does not decrease. The orientation is not covered |
| C144 | `stateDynamics` and `measureDynamics` of `Imu/Mltp` after any calls; the specification is in `Imu/MltpStepProps`, with the moving frames of `Kin/Spec` | the segments of the next state (as in C74), the norm of the product of quaternions, the normalisation; derivatives of the motion as in C141 |
| C145 | sequences of predictions (`PredictedQ` of `Imu/MotionProps`, `Predicted` of `Imu/StepSpec`) | induction on the number of steps from C144 and C142; exponentials of multiples of one matrix |
| C146 | the simulator of `Simulator/Model` and the filters of `EKF/Model` and `Kalman/Model` together, through their public methods | C62 gives the simulated states and measurements, C127 and C20 the recursions of the filters; induction on the steps, every innovation is zero |
| C147 | `imuMultiplicativeAttitudeReconstruction` of `Offline/MltpModel` (with and without inputs) on the data of a body (`Observed` of `Offline/MltpExactProps`), and `imuAttitudeTrajectoryReconstruction` (`ObservedV` of `Offline/AttExactProps`) | C101/C102 give a run of the filter; induction on the run, every innovation is zero and the correction by zero changes nothing; rotation vectors of at most 3π/2 of the same rotation are both below or both above 1e-16 (trace of the exponential) |
| C148 | `update` of the kinetics observer on a state at rest (`Resting`, `ReadsGravity` of `KO/StillProps`; the clients of C84) | the prediction of a state at rest computed (as in C106), the predicted measurements are the signals (C108), then no correction (C19), then an invariant of the calls of a client that does not move (`KO/ForeverProps`); refuted for the springs to the rest poses |

## 4. Trusted base

* The Lean 4 kernel; axioms at most `propext`, `Classical.choice`, `Quot.sound` (checked in `Verif/Axioms.lean`, printed per theorem).
* That the definitions in the model files are faithful readings of the cited C++ lines (by hand; nothing was run). The seeding log
  (`seeded/LOG.jsonl`) shows that realistic edits of the definitions break the theorems.
* The Eigen/boost meanings in section 1. The conversions between matrices, quaternions and angle-axis in `Rot/Eigen.lean` follow the formulas
  of Eigen 3.3.
* `assertFail` is the behaviour of a build with assertions. Eigen's own size assertions are included.

Property theorems are named `Cnn_...`. A `_partial` suffix marks a theorem covering part of its property (the docstring, `MANIFEST.json` and
section 5 say what is missing); `_false` marks a refutation of the property as stated, for all states of the kind named in the theorem
wherever possible, and by a concrete witness otherwise.

## 5. Disagreements between code and properties

Each line is proved; lines refer to the sources.

| id | disagreement | code |
|---|---|---|
| C03 | setLastIndex is off by two, for every array | definitions.hxx 358 |
| C04 | truncateBefore drops the element at `t` when it is the last one, and shifts the indexes when `t` is before the window | definitions.hxx 475-493 |
| C05 | reading without time stamps repeats the last matrix; values survive only up to the text format (6 digits by default) | definitions.hxx 495-560 |
| C10 | setState at an earlier time clears nothing: the branch cannot be reached | zero-delay-observer.cpp |
| C11 | running a system with inputs (p>0) without inputs pops an empty buffer | zero-delay-observer.cpp |
| C13 | getInputTime asserts on the measurement buffer | zero-delay-observer.cpp |
| C22 C23 | a prediction asked for earlier is reused after setState / reset at the same time | extended-kalman-filter.cpp, kalman-filter-base.cpp |
| C24 | the finite-difference Jacobian has m rows and is checked against mt, and ignores the measurement difference | extended-kalman-filter.cpp |
| C25 | bias limits on one axis only read an uninitialised number | unidim/lipm-dcm-estimator.cpp |
| C26, C122 | the bias saturation moves the DCM by an unrotated vector, so the estimates depend on the directions of the axes | lipm-dcm-estimator.cpp |
| C124 | after `getSimulatedMeasurement`, `getLastPredictedMeasurement` returns the simulated measurement | linear-kalman-filter.cpp 52-71 |
| C27 | setDcmMeasureErrorStd has no effect, setBiasDriftPerSecond sets another covariance | lipm-dcm-estimator.cpp |
| C28 | setInputs twice without update after a reset | lipm-dcm-estimator.cpp |
| C32 | three or more stored measurements stop the tilt estimator on an assertion | tilt-estimator.cpp |
| C41 | a reflection exchanging y and z is accepted as a rotation matrix | rigid-body-kinematics.hxx |
| C42 | regulateOrientationVector overflows `unsigned` for huge norms | rigid-body-kinematics.hxx 107-120 |
| C45 | derivateRtvMultiplicative has the opposite sign | rigid-body-kinematics.hxx |
| C52 | Kinematics::update: angular acceleration left unset, 2 a dt², known velocity neglected, opposite angular acceleration | rigid-body-kinematics.hxx |
| C54 | setGyroBias, setStateUnmodeledWrench, setStateKinematics use the state index in the tangent covariance | kinetics-observer.cpp |
| C55 | removeContact always fails, getNumberOfContacts is the capacity, clearContacts removes the slots | kinetics-observer.cpp |
| C61 | the acceleration of the frame counts the centrifugal acceleration of the centre of mass twice | kinetics-observer.cpp 1368 |
| C56 | with an absolute pose sensor update() never returns; after one estimation with a wrench sensor there is no other one | kinetics-observer.cpp 787-866, 722-740, extended-kalman-filter.cpp |
| C57 | automatic IMU numbering never returns | kinetics-observer.cpp |
| C76 | the time by which IMU poses are differentiated is always zero | kinetics-observer.cpp 547, 606 |
| C59 | setWithGyroBias sets the acceleration option | kinetics-observer.cpp |
| C60 | the stateDifference that returns a new vector leaves entries uninitialised unless the biases, the unmodeled wrench and all the contacts are in use; with the default settings they are not | kinetics-observer.hxx 221-227, kinetics-observer.cpp 1439-1481 |
| C63 | getState and getMeasurement beyond the horizon never return; first measurement unreadable; stale measurements | dynamical-system-simulator.cpp 34-48 |
| C64 | a second setInput for the same time is ignored | dynamical-system-simulator.cpp 31 |
| C65 | a sensor with noise and appended inputs fails an assertion | algebraic-sensor.cpp |
| C66 | the magnetometer ignores the field given to its constructor | accelerometer-gyrometer-magnetometer.cpp |
| C68 | push(address) always throws, updateAddress loses the record | logger.hxx 36-72 |
| C70 | finiteTimeAccControl returns the opposite of the converging control; the vector version skips the first component | miscellaneous-algorithms.hpp 149-170 |
| C77 | after a simulation step, setting the next state makes the following step fail | dynamical-system-simulator.cpp 72-80 |
| C79 | isApprox(0,0) is false | definitions.hxx 676 |
| C80 | setSamplingPeriod of the fixed-contact estimator has no effect | fixed-contact-ekf-flex-estimator-imu.cpp |
| C81 | a homogeneous matrix passes the first check and then always fails; the guess is not returned before a measurement arrives | fixed-contact-ekf-flex-estimator-imu.cpp |
| C83 | asking for the predicted measurement and then changing the number of contacts makes the next estimation fail | extended-kalman-filter.cpp, ekf-flexibility-estimator-base.cpp |
| C86 | the Coriolis term of the pendulum uses the height instead of the abscissa; the elasticity has no default value | bidim-elastic-inv-pendulum-dyn-sys.cpp 33-35 |
| C87 C89 | with three or more elastic contacts the forces are written out of the 6 coefficients allocated: assertion | imu-elastic-local-frame-dynamical-system.cpp 268-420 |
| C88 | the momentum rates use the mass 56.8 of a constant instead of the mass of the robot, and the linear velocity in place of the angular velocity | imu-elastic-local-frame-dynamical-system.cpp 134-181, 237-251 |
| C89 | the moment of a rope about the origin is computed and dropped | imu-elastic-local-frame-dynamical-system.cpp 368 |
| C90 | with process noise the result is a stale (at first empty) vector instead of the next state | imu-elastic-local-frame-dynamical-system.cpp 909-912 |
| C91 | a measurement asked before any call that reads a state fails an assertion | imu-elastic-local-frame-dynamical-system.cpp 942 |
| C91 | sensor noise together with forces or the absolute pose fails an assertion | imu-elastic-local-frame-dynamical-system.cpp 1048-1051 |
| C91 | the wrench predicted for a third contact is the unmodeled force; four or more fail an assertion | imu-elastic-local-frame-dynamical-system.cpp 1018-1029 |
| C92 | unmodeled forces not estimated have identity columns although the next state resets them | imu-elastic-local-frame-dynamical-system.cpp 1146-1239 |
| C93 | setForceVariance and setAbsolutePosVariance never change the covariance in use | model-base-ekf-flex-estimator-imu.cpp 263-317, 591-607 |
| C93 | the default covariance, the covariance between two contacts, and the variance of the pose enabled after the forces are uninitialised memory | model-base-ekf-flex-estimator-imu.cpp 81-89, 263-317 |
| C93 | after setForceVariance(Matrix3) measuring the forces fails an assertion | model-base-ekf-flex-estimator-imu.cpp 597-601 |
| C94 | enabling unmodeled forces, bias or drift does not make the estimator estimate them: the variances stay null until a reset | model-base-ekf-flex-estimator-imu.cpp 532-567 |
| C95 | the torques limit saturates the force of the second contact; torques are never saturated | model-base-ekf-flex-estimator-imu.cpp 385-395 |
| C97 | switched off, computeAccelerations fails an assertion when a measurement waits | model-base-ekf-flex-estimator-imu.hpp 68-71 |
| C98 | a guess given as a homogeneous matrix fails an assertion; a guess is not returned; setComBiasGuess discards it; after getPrediction it has no effect | model-base-ekf-flex-estimator-imu.cpp 157-194 |
| C98 | the wrench returned for a third contact is the unmodeled force; four contacts fail an assertion | model-base-ekf-flex-estimator-imu.cpp 252-261 |
| C96 | the steps given to useFiniteDifferencesJacobians are stored and never used | ekf-flexibility-estimator-base.cpp 63-67 |
| C99 | computeAccelerations and the rates of the momenta use the input of the previous or of the current time, depending on the order in which the compiler evaluates two arguments | model-base-ekf-flex-estimator-imu.hpp 68-71, model-base-ekf-flex-estimator-imu.cpp 224-250 |
| C99 | computeLocalObservationMatrix and getSimulatedMeasurement fail assertions on a new estimator | model-base-ekf-flex-estimator-imu.cpp 437-446, ekf-flexibility-estimator-base.cpp 144-150 |
| C100 | the period given by the caller is ignored, the estimator always uses 0.005 | offline-ekf-flexibility-estimation.hxx 12-15 |
| C104 | the pose given to `addContact` is not given to the filter: the next estimation does not depend on it, and overwrites it | kinetics-observer.cpp 890-897 |
| C104 | the linear stiffness given to `addContact` is ignored (default used) when no linear damping is given | kinetics-observer.cpp 901 |
| C108 | the predicted signal of a gyrometer is its angular velocity without the bias of the state | kinetics-observer.cpp 1597-1612 |
| C109 | the biases of the gyrometers and the rest poses of the contacts are never corrected: the model of the sensors does not use the biases, and no model uses the rest poses of the state | kinetics-observer.cpp 1597-1612, 1536-1564 |
| C110 | the first `setCenterOfMass(com)` stops on an assertion; the first velocity, momentum or inertia is differentiated with values of the constructor (zero, identity): a constant inertia gets a derivative; a value corrected in the same iteration keeps the derivative of the value that it replaces | kinetics-observer.cpp 759-768, 811-838, 847-855 |
| C111 | when the first time of the measurements is negative the estimates are returned from time 0 on; with force measurements the variance of the forces is 1e-4 whatever constant covariance is given | offline-model-base-flex-estimation.hxx 48-51, 106, 119-120, 171 |
| C112 | a coefficient that is not finite is printed `inf` or `nan`, which `>>` cannot read: it and all coefficients after it are read as zero, and a vector is cut there, without any error | definitions.cpp 33-39, 58-70 |
| C113 | `update_deprecated` keeps the previous acceleration when the velocity changes because of a new position, `update` deduces a new one (no claim of agreement is made by the code) | rigid-body-kinematics.hxx 1974-2001 |
| C114 | at the third stage of `iterateDynamicsRK4` the forces of the contacts are given for the moments and the moments for the forces: a robot at rest that its contact holds falls | imu-elastic-local-frame-dynamical-system.cpp 776-778 |
| C106 | the predicted wrench of a contact does not depend on its rest pose: the error used is the pose of the robot times the pose of the contact times its inverse, so the spring and the damper act between the robot frame and the origin of the world (`C106_computed_partial`, `C106_false`) | kinetics-observer.cpp 1546-1563 |
| C125 | for the same reason the predicted wrenches of the contacts depend on the origin of the world: moving it by `t` changes the force by the stiffness times `t` (`C125_force_partial`, `C125_false`) | kinetics-observer.cpp 1546-1563 |
| C140 | the torque of the spring of a contact uses the vector of the quaternion of the error as it is stored: with the opposite quaternion in the state, the part of the stiffness changes its sign, if the orientation of the contact was given as a quaternion (`C140_torque_partial`, `C140_false`); given as a matrix, it does not | kinetics-observer.cpp 1559-1560, rigid-body-kinematics.hxx 842-877 |
| C148 | a robot in equilibrium on a contact away from its rest position does not stay: the estimation replaces the force of the contact by the one of a spring between the robot and the origin of the world (same reason as C106); stays only with such forces (`C148_false`, `C148_partial`) | kinetics-observer.cpp 1546-1563 |
| C139 | the end of the file of the gyrometer is never tested (`facc.eof() \|\| facc.eof()`): when it is shorter, an uninitialised index is compared, and the last measurement of the gyrometer can be used again (`C139_short`, `C139_false`) | misc-tools/IMU-Observation-tester.cpp 33 |
| C139 | a word that is not a number in the file of a trajectory makes the tool loop for ever or fail an assertion: only the end of the file is tested, which a failed stream does not reach (`C139_malformed_false`) | misc-tools/real-offline-flexibility-estimator.cpp 181-196 |
| C137 | the horizontal coordinates of the result are those of the point of the plane of height 0, the height returned is the mean height of the contacts: with contacts that are not at height 0 and a horizontal force, the moment about the result has a horizontal component (`C137_false`) | misc-tools/zmpEstimation.cpp 31-86 |
| C138 | the splitter tests the number of logged instants (`u.size()`) instead of the size of the input at the instant: in logs of at most 48 instants the first contact is lost and the numbers of contacts are wrong, in longer logs an instant without contact stops the tool (`C138_inputs_short`, `C138_inputs_long_false`) | misc-tools/file-splitter.cpp 73 |
| C138 | the file of the bias of the center of mass also holds the first component of the drift (`C138_states_partial`, `C138_states_false`); an instant without measurement between two measurements stops the tool (`C138_gap_false`) | misc-tools/file-splitter.cpp |
| C136 | a filter with a declared input that is not used (`B = 0`) and not given can be run to the time 0 and not to the time 1: the empty input buffer has the index 0 and is popped when the time is later (`C136_false`) | zero-delay-observer.cpp 153-160, definitions.hxx 375-379 |
| C135 | `computeContactForces_` takes the torque by value, so that the computed torque is lost (`C135_wrench_false`) | kinetics-observer.hpp 927-931, kinetics-observer.cpp 1379-1400 |
| C135 | `Sensor::extractFromVector` exchanges the start and the length of the segment (`C135_extract_false`) | kinetics-observer.hpp 850-853 |
| C133 | the state function and the measurement function of the kinetics observer call `getNoisy` and discard its result, so that a process or measurement noise given by a derived class has no effect on the predictions (`C133_state_false`, `C133_measurement_false`) | kinetics-observer.cpp 1565-1570, 1625-1630 |
| C131 | `setBiasDriftPerSecond` uses its argument as a drift per iteration (the constructor multiplies it by the sampling period), so that the estimates depend on the unit of time (`C131_false`) | lipm-dcm-estimator.cpp 133-138 |
| C01 | `front` and `back` of an empty array are undefined and this is not detected by an assertion, unlike `operator[]` and `popFront` (`C01_access`) | definitions.hxx 307-331 |
| C129 | a linear filter without inputs (`p = 0`, the default) must nevertheless be given a matrix `B` without columns: otherwise every estimation stops on an assertion (`C129_fails`, `C129_false`); an unset `D` is accepted | linear-kalman-filter.cpp 33-35 |

Observations made while reading, without a theorem: the default constructor of `KalmanFilterBase` leaves `mt_` uninitialised;
`GaussianWhiteNoise` rejects singular covariances although the header allows them; `Sensor::extractFromVector` swaps its arguments
(kinetics-observer.hpp 853); `addContact` guards the linear stiffness by the linear damping (kinetics-observer.cpp 901);
`getContactPosition` reads a segment of size 13 (376); `computeContactForces_` takes its torque by value (1383).

## 6. Not modelled

* `hrp2.hpp`, `unit-testings/`; floating-point rounding; random number generator quality; time stop-watches.
* `misc-tools/`: everything except `computeZmp`, the loops of the file splitter `getMeasurements` of the attitude tester and the reading of `getTrajectory` (the `main` functions, reading the command line, the files and the messages).
* The NaN branch of `getFlexibilityVector` of `model-base-ekf-flex-estimator-imu.*`.
* `Orientation::setMatrix/setQuaternion` and the unsafe references, aliasing of product operands.
* Kinetics observer: the scratch members `opt_`, writing back the lazily computed orientation matrices, the NaN branch of `update`,
  direct access by `getEKF()`.
* Functors with an internal state that changes between calls (except the ones of the library, which are modelled).
