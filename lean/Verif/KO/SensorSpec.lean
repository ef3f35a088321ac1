import Verif.KO.PredictSpec
/-!
# Specification of the predicted measurements (C108)
-/

namespace StateObs.KO
open StateObs Matrix Rot Kine

/-- The kinematics of a frame: position, orientation, velocities, accelerations. -/
structure Moving6 where
  p : V3
  R : M3
  v : V3
  w : V3
  a : V3
  α : V3

/-- The kinematics of a sensor in the robot (its angular acceleration has no effect on what it measures). -/
structure Mounted where
  p : V3
  R : M3
  v : V3
  w : V3
  a : V3

/-- The acceleration, in the world, of the origin of a frame mounted on the robot: the one of the robot, the tangential, centripetal and Coriolis ones, and the one of the
frame in the robot. -/
def originAcc (r : Moving6) (l : Mounted) : V3 :=
  r.a + r.α ⨯₃ (r.R *ᵥ l.p) + r.w ⨯₃ (r.w ⨯₃ (r.R *ᵥ l.p)) + (2 : ℝ) • (r.w ⨯₃ (r.R *ᵥ l.v)) + r.R *ᵥ l.a

/-- What an accelerometer mounted on the robot measures: the acceleration of its origin and the gravity (upwards), in its frame. -/
noncomputable def accelerometer (r : Moving6) (l : Mounted) : V3 := (r.R * l.R)ᵀ *ᵥ (originAcc r l + ![0, 0, 9.8])
/-- What a gyrometer without bias measures: its angular velocity, in its frame. -/
def gyrometer (r : Moving6) (l : Mounted) : V3 := (r.R * l.R)ᵀ *ᵥ (r.w + r.R *ᵥ l.w)

/-- The kinematics of the robot in the state vector `x`, with the accelerations that `estimateAccelerations()` computes when it is the state vector. -/
def RobotIn (o : Observer) (x : DVec) (r : Moving6) : Prop :=
  ∃ o1 o2, o.setStateVector x false = .ok o1 ∧ o1.estimateAccelerations = .ok o2 ∧ o2.getKinematics.Has ⟨some r.p, some r.R, some r.v, some r.w, some r.a, some r.α⟩

/-- The IMU has the kinematics `l` in the robot. -/
def IMU.MountedAt (m : IMU) (l : Mounted) : Prop := ∃ y, m.kin.Has ⟨some l.p, some l.R, some l.v, some l.w, some l.a, y⟩

/-- The measurements of a list of IMUs, numbered from `n`: those with a signal of the iteration `k`, in their order. -/
def imuReadings (read : ℕ → List ℝ) (k : Int) : ℕ → List IMU → List ℝ
  | _, [] => []
  | n, m :: L => (if m.time = k then read n else []) ++ imuReadings read k (n + 1) L
/-- The measurements of a list of contacts, numbered from `n`: those with a force sensor, in their order. -/
def contactReadings (read : ℕ → List ℝ) : ℕ → List Contact → List ℝ
  | _, [] => []
  | n, c :: L => (if c.withRealSensor then read n else []) ++ contactReadings read (n + 1) L

/-- The vector of the measurements `yb`: for the IMUs, the accelerometer and then `gyro` of their numbers; for the contacts with a sensor the force and the torque that the state
vector has. -/
def Readings (ni : ℕ) (o : Observer) (x : DVec) (r : Moving6) (l : ℕ → Mounted) (gyro : ℕ → V3) (yb : DVec) : Prop :=
  List.ofFn yb.val = imuReadings (fun i => List.ofFn (accelerometer r (l i)) ++ List.ofFn (gyro i)) o.kData 0 o.imus ++
    contactReadings (fun n => List.ofFn (contactForce ni n x) ++ List.ofFn (contactTorque ni n x)) 0 o.contacts

/-- What is expected of the measurement that an estimation predicts for the state vector `x`: the accelerometers, the gyrometers with their biases, the force sensors. -/
def C108_statement : Prop := ∀ (nc ni : ℕ) (ops : List Op) (o oy : Observer) (y : DVec) (cov : DMat) (x yb : DVec) (r : Moving6) (l : ℕ → Mounted),
  Reachable nc ni ops o → o.kEst ≠ o.kData → o.abs.time ≠ o.kData → o.buildMeasurement = .ok (oy, y, cov) → oy.measureDynamics x o.kData = .ok yb →
  (stateOri x).normSq = 1 → RobotIn o x r → (∀ (i : ℕ) (m : IMU), o.imus[i]? = some m → m.time = o.kData → m.MountedAt (l i)) →
    Readings ni o x r l (fun i => gyrometer r (l i) + stateBias i x) yb

end StateObs.KO
