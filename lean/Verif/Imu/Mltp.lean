import Verif.Imu.Model
/-!
# The inertial unit with a multiplicative state

src/imu-mltpctive-dynamical-system.cpp and imu-mltpctive-dynamical-system.hpp (`IMUMltpctiveDynamicalSystem`): the orientation is a
quaternion and the increments are tangent vectors. States, inputs and tangent vectors have their right size by typing.
-/

namespace StateObs.Mltp
open StateObs Matrix Rot Kine Sensor Imu

/-- `kine::indexes<quaternion>`, rigid-body-kinematics.hpp. -/
abbrev qPos := 0
abbrev qOri := 3
abbrev qLinVel := 7
abbrev qAngVel := 10
abbrev qLinAcc := 13
abbrev qAngAcc := 16

/-- `Quaternion(x.segment<4>(indexes::ori))`; the coefficients are stored `x, y, z, w`. -/
def quatOf (c : Fin 4 → ℝ) : Quat := ⟨c 3, c 0, c 1, c 2⟩

/-- `q.coeffs()`. -/
def coeffs (q : Quat) : Fin 4 → ℝ := ![q.x, q.y, q.z, q.w]

/-- `kine::quatNormTol`, rigid-body-kinematics.hpp 352. -/
noncomputable def quatNormTol : ℝ := 1e-6

/-- The members. Of `opt_` the two Jacobians, which are kept between the calls (the others are written before they are read). -/
structure Sys (R : Type) where
  aJac : Matrix (Fin 18) (Fin 18) ℝ
  cJac : Matrix (Fin 6) (Fin 18) ℝ
  sensor : Sensor Bool R
  noise : Option (VNoise R 19)
  dt : ℝ

/-- `AJacobian` after the constructor of `opt`, imu-mltpctive-dynamical-system.hpp 97-104. -/
noncomputable def aJac0 : Matrix (Fin 18) (Fin 18) ℝ := setBlock (setBlock 0 iPos iPos (1 : M3)) iLinVel iLinVel (1 : Matrix (Fin 6) (Fin 6) ℝ)

/-- The constructor, imu-mltpctive-dynamical-system.cpp 8-9. -/
noncomputable def ctor {R : Type} : Sys R := ⟨aJac0, 0, Sensor.ctor false, none, 1⟩

open Classical in
/-- The normalisation of lines 37-42. -/
noncomputable def renormalize (q : Quat) : Quat :=
  if q.normSq > 1 + quatNormTol ∨ q.normSq < 1 - quatNormTol then q.normalized else q

/-- The next state before the noise, imu-mltpctive-dynamical-system.cpp 27-59. -/
noncomputable def nextState (dt : ℝ) (x : Fin 19 → ℝ) (u : Fin 6 → ℝ) : Fin 19 → ℝ :=
  let pv := integratePosVel (seg 3 x qPos) (seg 3 x qLinVel) (seg 3 x qLinAcc) dt
  let qw := integrateQuatVel (quatOf (seg 4 x qOri)) (seg 3 x qAngVel) (seg 3 x qAngAcc) dt
  setSeg (setSeg (setSeg (setSeg (setSeg (setSeg 0 qPos pv.1) qLinVel pv.2) qOri (coeffs (renormalize qw.1))) qAngVel qw.2)
    qLinAcc (seg 3 u 0)) qAngAcc (seg 3 u 3)

/-- `stateDynamics`, imu-mltpctive-dynamical-system.cpp 22-65. -/
noncomputable def stateDynamics {R : Type} (s : Sys R) (x : Fin 19 → ℝ) (u : Fin 6 → ℝ) (r : R) : Res ((Fin 19 → ℝ) × R) :=
  addNoise s.noise r (nextState s.dt x u)

/-- `measureDynamics`, imu-mltpctive-dynamical-system.cpp 67-88. -/
noncomputable def measureDynamics {R : Type} (s : Sys R) (x : Fin 19 → ℝ) (k : Int) (r : R) : Res (List ℝ × Sys R × R) := do
  let sensor ← Sensor.setState accGyro s.sensor (sensorState (quatOf (seg 4 x qOri)) (seg 3 x qLinAcc) (seg 3 x qAngVel)) k
  let (y, sensor, r) ← Sensor.getMeasurements accGyro sensor r true
  .ok (y, { s with sensor := sensor }, r)

/-- What `getAMatrix` writes in `AJacobian`, imu-mltpctive-dynamical-system.cpp 93-105. -/
noncomputable def writeA (A : Matrix (Fin 18) (Fin 18) ℝ) (dt : ℝ) (x : Fin 19 → ℝ) : Matrix (Fin 18) (Fin 18) ℝ :=
  let deltaR := dt • seg 3 x qAngVel + (dt * dt / 2) • seg 3 x qAngAcc
  let j := derivateRotationMultiplicative deltaR
  let A := setBlock A iOri iOri j.1
  let A := setDiag A iPos iLinVel 3 dt
  let A := setBlock A iOri iAngVel (dt • j.2)
  let A := setDiag A iLinVel iLinAcc 6 dt
  let A := setDiag A iPos iLinAcc 3 (dt * dt * 0.5)
  setBlock A iOri iAngAcc ((dt * dt / 2) • j.2)

/-- `getAMatrix`, imu-mltpctive-dynamical-system.cpp 90-108. -/
noncomputable def getAMatrix {R : Type} (s : Sys R) (x : Fin 19 → ℝ) : Matrix (Fin 18) (Fin 18) ℝ × Sys R :=
  (writeA s.aJac s.dt x, { s with aJac := writeA s.aJac s.dt x })

/-- What `getCMatrix` writes in `CJacobian`, imu-mltpctive-dynamical-system.cpp 112-123. -/
noncomputable def writeC (C : Matrix (Fin 6) (Fin 18) ℝ) (x : Fin 19 → ℝ) : Matrix (Fin 6) (Fin 18) ℝ :=
  let rt := (quatOf (seg 4 x qOri)).toMatᵀ
  let C := setBlock C 0 iOri (rt * skewSymmetric (seg 3 x qLinAcc + gravity))
  let C := setBlock C 0 iLinAcc rt
  let C := setBlock C 3 iOri (rt * skewSymmetric (seg 3 x qAngVel))
  setBlock C 3 iAngVel rt

/-- `getCMatrix`, imu-mltpctive-dynamical-system.cpp 110-126. -/
noncomputable def getCMatrix {R : Type} (s : Sys R) (x : Fin 19 → ℝ) : Matrix (Fin 6) (Fin 18) ℝ × Sys R :=
  (writeC s.cJac x, { s with cJac := writeC s.cJac x })

/-- `stateSum`, imu-mltpctive-dynamical-system.cpp 178-195 (every coefficient of the result is written). -/
noncomputable def stateSum (x : Fin 19 → ℝ) (d : Fin 18 → ℝ) : Fin 19 → ℝ :=
  setSeg (setSeg (setSeg (setSeg (setSeg (setSeg 0 qPos (seg 3 x qPos + seg 3 d iPos)) qLinVel (seg 3 x qLinVel + seg 3 d iLinVel))
    qLinAcc (seg 3 x qLinAcc + seg 3 d iLinAcc)) qOri (coeffs (rotationVectorToQuaternion (seg 3 d iOri) * quatOf (seg 4 x qOri))))
    qAngVel (seg 3 x qAngVel + seg 3 d iAngVel)) qAngAcc (seg 3 x qAngAcc + seg 3 d iAngAcc)

/-- `stateDifference`, imu-mltpctive-dynamical-system.cpp 197-216. -/
noncomputable def stateDifference (x y : Fin 19 → ℝ) : Fin 18 → ℝ :=
  setSeg (setSeg (setSeg (setSeg (setSeg (setSeg 0 iPos (seg 3 x qPos - seg 3 y qPos)) iLinVel (seg 3 x qLinVel - seg 3 y qLinVel))
    iLinAcc (seg 3 x qLinAcc - seg 3 y qLinAcc))
    iOri (quaternionToRotationVector (quatOf (seg 4 x qOri) * (quatOf (seg 4 y qOri)).conj)))
    iAngVel (seg 3 x qAngVel - seg 3 y qAngVel)) iAngAcc (seg 3 x qAngAcc - seg 3 y qAngAcc)

/-- The public methods with an effect on the object. -/
inductive Op (R : Type) where
  | stateDynamics (x : Fin 19 → ℝ) (u : Fin 6 → ℝ) (k : Int)
  | measureDynamics (x : Fin 19 → ℝ) (u : Fin 6 → ℝ) (k : Int)
  | getAMatrix (x : Fin 19 → ℝ)
  | getCMatrix (x : Fin 19 → ℝ)
  | setProcessNoise (n : Option (VNoise R 19))
  | setMeasurementNoise (n : Option (Noise R))
  | setSamplingPeriod (dt : ℝ)

/-- The effect of a call; the setters: imu-mltpctive-dynamical-system.cpp 128-149. -/
noncomputable def exec {R : Type} (s : Sys R) (r : R) : Op R → Res (Sys R × R)
  | .stateDynamics x u _ => do
    let (_, r) ← stateDynamics s x u r
    .ok (s, r)
  | .measureDynamics x _ k => do
    let (_, s, r) ← measureDynamics s x k r
    .ok (s, r)
  | .getAMatrix x => .ok ((getAMatrix s x).2, r)
  | .getCMatrix x => .ok ((getCMatrix s x).2, r)
  | .setProcessNoise n => .ok ({ s with noise := n }, r)
  | .setMeasurementNoise n => .ok ({ s with sensor := setNoise s.sensor n }, r)
  | .setSamplingPeriod dt => .ok ({ s with dt := dt }, r)

/-- A sequence of calls. -/
noncomputable def run {R : Type} (s : Sys R) (r : R) : List (Op R) → Res (Sys R × R)
  | [] => .ok (s, r)
  | op :: ops => do
    let (s, r) ← exec s r op
    run s r ops

end StateObs.Mltp
