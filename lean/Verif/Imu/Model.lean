import Verif.Imu.Vec
import Verif.Sensor.Model
/-!
# Dynamical systems of inertial measurement units

src/imu-dynamical-system.cpp, src/imu-magnetometer-dynamical-system.cpp, src/imu-fixed-contact-dynamical-system.cpp,
src/stable-imu-fixed-contact-dynamical-system.cpp (states with a rotation vector), src/imu-mltpctive-dynamical-system.cpp
(states with a quaternion). State and input vectors have their right size by typing (`assertStateVector_`, `assertInputVector_`).
-/

namespace StateObs.Imu
open StateObs Matrix Rot Kine Sensor

/-- `kine::indexes<rotationVector>`, rigid-body-kinematics.hpp. -/
abbrev iPos := 0
abbrev iOri := 3
abbrev iLinVel := 6
abbrev iAngVel := 9
abbrev iLinAcc := 12
abbrev iAngAcc := 15

/-- A process noise (any `NoiseBase`). -/
abbrev VNoise (R : Type) (N : ℕ) := R → (Fin N → ℝ) → Res ((Fin N → ℝ) × R)

/-- Adding the process noise if there is one: `if(processNoise_ != 0x0) return processNoise_->getNoisy(xk1); else return xk1;`. -/
def addNoise {R : Type} {N : ℕ} (n : Option (VNoise R N)) (r : R) (x : Fin N → ℝ) : Res ((Fin N → ℝ) × R) :=
  match n with
  | some n => n r x
  | none => .ok (x, r)

/-- The four classes with rotation vectors. -/
inductive Variant where
  /-- `IMUDynamicalSystem` -/
  | imu
  /-- `IMUMagnetometerDynamicalSystem` -/
  | mag
  /-- `IMUFixedContactDynamicalSystem` -/
  | fixed
  /-- `StableIMUFixedContactDynamicalSystem` -/
  | stable

/-- `inputSize_` in the headers. -/
def inputSize : Variant → ℕ
  | .imu => 6
  | .mag => 0
  | .fixed => 15
  | .stable => 15

/-- The sensor `sensor_` of each class. -/
noncomputable def kind : Variant → Kind (Bool × V3)
  | .mag => accGyroMag
  | _ => ⟨fun m => accGyro.stateSize m.1, accGyro.measSize, fun m => accGyro.compute m.1⟩

/-- The members. The contacts exist in the last two classes only; `measurementSize_` is six plus three for each of them. -/
structure Sys (R : Type) where
  cacheVec : V3
  cacheQuat : Quat
  sensor : Sensor (Bool × V3) R
  noise : Option (VNoise R 18)
  dt : ℝ
  contacts : List V3

/-- The constructors, imu-dynamical-system.cpp 8-10, imu-fixed-contact-dynamical-system.cpp 10-13 (the first two set `dt_` to one). -/
noncomputable def ctor {R : Type} (dt : ℝ) : Sys R := ⟨0, 1, Sensor.ctor magMode, none, dt, []⟩

open Classical in
/-- `computeQuaternion_`, imu-dynamical-system.cpp 65-74, imu-magnetometer-dynamical-system.cpp 60-69,
imu-fixed-contact-dynamical-system.cpp 59-68, stable-imu-fixed-contact-dynamical-system.cpp 78-87. -/
noncomputable def computeQuaternion {R : Type} (s : Sys R) (x : V3) : Quat × Sys R :=
  if s.cacheVec ≠ x then
    let q := Quat.ofAngleAxis (rotationVectorToAngleAxis x)
    (q, { s with cacheQuat := q, cacheVec := x })
  else (s.cacheQuat, s)

/-- `stabilizeAccelerationLinear` and `stabilizeAccelerationAngular`, stable-imu-fixed-contact-dynamical-system.cpp 23-37. -/
noncomputable def stabilize (x xdot : V3) : V3 := -((5 : ℝ) • (5 : ℝ) • x) - (2 : ℝ) • (0.1 : ℝ) • (5 : ℝ) • xdot

/-- The next state (before the noise) from the current orientation as a quaternion: imu-dynamical-system.cpp 28-56,
imu-magnetometer-dynamical-system.cpp 26-51, imu-fixed-contact-dynamical-system.cpp 28-49, stable-imu-fixed-contact-dynamical-system.cpp 43-69. -/
noncomputable def nextState (v : Variant) (dt : ℝ) (q : Quat) (x : Fin 18 → ℝ) (u : Fin (inputSize v) → ℝ) : Fin 18 → ℝ :=
  let a := match v with
    | .stable => stabilize (seg 3 x iPos) (seg 3 x iLinVel)
    | _ => seg 3 x iLinAcc
  let w' := match v with
    | .stable => stabilize (seg 3 x iOri) (seg 3 x iAngVel)
    | _ => seg 3 x iAngAcc
  let pv := integratePosVel (seg 3 x iPos) (seg 3 x iLinVel) a dt
  let qw := integrateQuatVel q (seg 3 x iAngVel) w' dt
  let aa := AngleAxis.ofQuat qw.1
  let x0 : Fin 18 → ℝ := match v with
    | .imu => setSeg (setSeg 0 iLinAcc (seg 3 u 0)) iAngAcc (seg 3 u 3)
    | .mag => 0
    | .fixed => x
    | .stable => setSeg (setSeg x iLinAcc a) iAngAcc w'
  setSeg (setSeg (setSeg (setSeg x0 iPos pv.1) iLinVel pv.2) iOri (aa.angle • aa.axis)) iAngVel qw.2

/-- `stateDynamics`, imu-dynamical-system.cpp 22-61, imu-magnetometer-dynamical-system.cpp 22-56,
imu-fixed-contact-dynamical-system.cpp 24-55, stable-imu-fixed-contact-dynamical-system.cpp 39-75. -/
noncomputable def stateDynamics {R : Type} (v : Variant) (s : Sys R) (x : Fin 18 → ℝ) (u : Fin (inputSize v) → ℝ) (r : R) :
    Res ((Fin 18 → ℝ) × Sys R × R) := do
  let (q, s) := computeQuaternion s (seg 3 x iOri)
  let (x', r) ← addNoise s.noise r (nextState v s.dt q x u)
  .ok (x', s, r)

/-- The vector given to the sensor: coefficients of a quaternion, acceleration, angular velocity. -/
def sensorState (q : Quat) (a w : V3) : List ℝ := [q.x, q.y, q.z, q.w, a 0, a 1, a 2, w 0, w 1, w 2]

/-- The acceleration at the sensor of the fixed-contact systems, imu-fixed-contact-dynamical-system.cpp 97-102. -/
noncomputable def fixedAcceleration (rFlex : M3) (x : Fin 18 → ℝ) (u : Fin 15 → ℝ) : V3 :=
  (skewSymmetric (seg 3 x iAngAcc) + skewSymmetric (seg 3 x iAngVel) * skewSymmetric (seg 3 x iAngVel)) *ᵥ (rFlex *ᵥ seg 3 u iPos) +
    (2 : ℝ) • (skewSymmetric (seg 3 x iAngVel) *ᵥ (rFlex *ᵥ seg 3 u iLinVel)) + seg 3 x iLinAcc + rFlex *ᵥ seg 3 u iLinAcc

/-- `sensor_.setState(v, k); sensor_.getMeasurements()`. -/
noncomputable def useSensor {R : Type} (v : Variant) (s : Sys R) (l : List ℝ) (k : Int) (r : R) : Res (List ℝ × Sys R × R) := do
  let sensor ← Sensor.setState (kind v) s.sensor l k
  let (y, sensor, r) ← Sensor.getMeasurements (kind v) sensor r true
  .ok (y, { s with sensor := sensor }, r)

/-- `measureDynamics` of the first two classes, imu-dynamical-system.cpp 76-97, imu-magnetometer-dynamical-system.cpp 71-92. -/
noncomputable def measureImu {R : Type} (v : Variant) (s : Sys R) (x : Fin 18 → ℝ) (k : Int) (r : R) : Res (List ℝ × Sys R × R) :=
  let (q, s) := computeQuaternion s (seg 3 x iOri)
  useSensor v s (sensorState q (seg 3 x iLinAcc) (seg 3 x iAngVel)) k r

/-- The virtual measurements of the contacts, imu-fixed-contact-dynamical-system.cpp 116-120. -/
def contactMeasurements (rFlex : M3) (p : V3) (contacts : List V3) : List ℝ :=
  contacts.flatMap fun c => toL (rFlex *ᵥ c + p - c)

/-- `measureDynamics` of the fixed-contact classes, imu-fixed-contact-dynamical-system.cpp 70-123,
stable-imu-fixed-contact-dynamical-system.cpp 89-143. -/
noncomputable def measureFixed {R : Type} (v : Variant) (s : Sys R) (x : Fin 18 → ℝ) (u : Fin 15 → ℝ) (k : Int) (r : R) :
    Res (List ℝ × Sys R × R) := do
  let (qFlex, s) := computeQuaternion s (seg 3 x iOri)
  let rFlex := qFlex.toMat
  let (qControl, s) := computeQuaternion s (seg 3 u iOri)
  let q := qFlex * qControl
  let w := seg 3 x iAngVel + rFlex *ᵥ seg 3 u iAngVel
  let (y, s, r) ← useSensor v s (sensorState q (fixedAcceleration rFlex x u) w) k r
  Res.assert (decide (y.length = 6))
  .ok (y ++ contactMeasurements rFlex (seg 3 x iPos) s.contacts, s, r)

/-- `measureDynamics`. -/
noncomputable def measureDynamics {R : Type} (v : Variant) (s : Sys R) (x : Fin 18 → ℝ) (u : Fin (inputSize v) → ℝ) (k : Int) (r : R) :
    Res (List ℝ × Sys R × R) :=
  match v, u with
  | .imu, _ => measureImu .imu s x k r
  | .mag, _ => measureImu .mag s x k r
  | .fixed, u => measureFixed .fixed s x u k r
  | .stable, u => measureFixed .stable s x u k r

/-- The public methods. -/
inductive Op (R : Type) (v : Variant) where
  | stateDynamics (x : Fin 18 → ℝ) (u : Fin (inputSize v) → ℝ) (k : Int)
  | measureDynamics (x : Fin 18 → ℝ) (u : Fin (inputSize v) → ℝ) (k : Int)
  | setProcessNoise (n : Option (VNoise R 18))
  | setMeasurementNoise (n : Option (Noise R))
  | setSamplingPeriod (dt : ℝ)
  | setContactsNumber (n : ℕ)
  | setContactPosition (i : ℕ) (p : V3)

/-- The effect of a call. The setters of the noises and of the period: imu-dynamical-system.cpp 99-145, imu-magnetometer-dynamical-system.cpp 94-140,
stable-imu-fixed-contact-dynamical-system.cpp 144-207, imu-fixed-contact-dynamical-system.cpp 124-176 (setting and resetting; the getters and the sizes are not
represented). `setContactsNumber`, `setContactPosition`: imu-fixed-contact-dynamical-system.cpp 177-188. -/
noncomputable def exec {R : Type} (v : Variant) (s : Sys R) (r : R) : Op R v → Res (Sys R × R)
  | .stateDynamics x u _ => do
    let (_, s, r) ← stateDynamics v s x u r
    .ok (s, r)
  | .measureDynamics x u k => do
    let (_, s, r) ← measureDynamics v s x u k r
    .ok (s, r)
  | .setProcessNoise n => .ok ({ s with noise := n }, r)
  | .setMeasurementNoise n => .ok ({ s with sensor := setNoise s.sensor n }, r)
  | .setSamplingPeriod dt => .ok ({ s with dt := dt }, r)
  | .setContactsNumber n => .ok ({ s with contacts := s.contacts.take n ++ List.replicate (n - s.contacts.length) 0 }, r)
  | .setContactPosition i p => if i < s.contacts.length then .ok ({ s with contacts := s.contacts.set i p }, r) else .assertFail

/-- A sequence of calls. -/
noncomputable def run {R : Type} (v : Variant) (s : Sys R) (r : R) : List (Op R v) → Res (Sys R × R)
  | [] => .ok (s, r)
  | op :: ops => do
    let (s, r) ← exec v s r op
    run v s r ops

end StateObs.Imu
