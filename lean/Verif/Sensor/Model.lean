import Verif.Rot.Model
/-!
# Simulated sensors

src/sensor-base.cpp, src/algebraic-sensor.cpp, src/accelerometer-gyrometer.cpp, src/accelerometer-gyrometer-magnetometer.cpp,
src/linear-acceleration.cpp, src/rotation-velocity.cpp, src/magnetic-field.cpp.

Vectors with run-time sizes are lists. Eigen's range assertions (`head`, `tail`, `segment`, comma initialisation) are assertions. The random
generator is a state `R` which the noise (any `NoiseBase`) may change.
-/

namespace StateObs.Sensor
open StateObs Matrix Rot Kine

/-- A noise object: `NoiseBase::getNoisy`, noise-base.hpp. -/
abbrev Noise (R : Type) := R → List ℝ → Res (List ℝ × R)

/-- What a subclass of `AlgebraicSensor` provides (algebraic-sensor.hpp): sizes and `computeNoiselessMeasurement_`; `M` is its mode. -/
structure Kind (M : Type) where
  stateSize : M → ℕ
  measSize : ℕ
  compute : M → List ℝ → Res (List ℝ)

/-- Members of `SensorBase`, `AlgebraicSensor` and the mode of the subclass. -/
structure Sensor (M R : Type) where
  mode : M
  noise : Option (Noise R)
  time : Int
  concat : ℕ
  state : List ℝ
  direct : List ℝ
  storedNoisy : Bool
  noisy : List ℝ
  storedClean : Bool
  clean : List ℝ

variable {M R : Type} (K : Kind M)

/-- The constructors, sensor-base.cpp 5, algebraic-sensor.cpp 5-7. -/
def ctor (mode : M) : Sensor M R := ⟨mode, none, 0, 0, [], [], false, [], false, []⟩

/-- `v.head(n)`. -/
def head (n : ℕ) (v : List ℝ) : Res (List ℝ) := if n ≤ v.length then .ok (v.take n) else .assertFail
/-- `v.tail(n)`. -/
def tail (n : ℕ) (v : List ℝ) : Res (List ℝ) := if n ≤ v.length then .ok (v.drop (v.length - n)) else .assertFail

/-- `setState`, algebraic-sensor.cpp 9-17. -/
def setState (s : Sensor M R) (state : List ℝ) (k : Int) : Res (Sensor M R) := do
  let d ← tail s.concat state
  let h ← head (K.stateSize s.mode) state
  .ok { s with direct := d, state := h, storedNoisy := false, storedClean := false, time := k }

/-- `getStateSize`, algebraic-sensor.cpp 19-22. -/
def getStateSize (s : Sensor M R) : ℕ := K.stateSize s.mode + s.concat
/-- `getMeasurementSize`, algebraic-sensor.cpp 24-27. -/
def getMeasurementSize (s : Sensor M R) : ℕ := K.measSize + s.concat

/-- The computation of `noiselessMeasurement_`, algebraic-sensor.cpp 43-46 and 72-75. The comma initialisation requires the sizes to match. -/
def computeClean (s : Sensor M R) : Res (Sensor M R) := do
  let m ← K.compute s.mode s.state
  if s.concat > 0 then
    Res.assert (decide (s.clean.length = m.length + s.direct.length))
    .ok { s with clean := m ++ s.direct, storedClean := true }
  else .ok { s with clean := m, storedClean := true }

/-- Computing the noiseless measurement unless it is stored, algebraic-sensor.cpp 41-49. -/
def ensureClean (s : Sensor M R) : Res (Sensor M R) := if s.storedClean then .ok s else computeClean K s

/-- The same in `computeNoisyMeasurement_`, algebraic-sensor.cpp 68-77, where the state is checked (`checkStateVector`: sensor-base.cpp 7-10). -/
def ensureCleanChecked (s : Sensor M R) : Res (Sensor M R) :=
  if s.storedClean then .ok s
  else if s.state.length = getStateSize K s then computeClean K s
  else .assertFail

/-- `computeNoisyMeasurement_`, algebraic-sensor.cpp 66-81. -/
def computeNoisy (s : Sensor M R) (n : Noise R) (r : R) : Res (List ℝ × Sensor M R × R) := do
  let s ← ensureCleanChecked K s
  let (v, r) ← n r s.clean
  .ok (v, s, r)

/-- `getMeasurements`, algebraic-sensor.cpp 29-53. -/
def getMeasurements (s : Sensor M R) (r : R) (noisy : Bool) : Res (List ℝ × Sensor M R × R) :=
  match noisy, s.noise with
  | true, some n =>
    if s.storedNoisy then .ok (s.noisy, s, r)
    else do
      let (v, s, r) ← computeNoisy K s n r
      .ok (v, { s with noisy := v, storedNoisy := true }, r)
  | _, _ => do
    let s ← ensureClean K s
    .ok (s.clean, s, r)

/-- `concatenateWithInput`, algebraic-sensor.cpp 83-88 (the resized vector keeps no defined content). -/
def concatenateWithInput (s : Sensor M R) (n : ℕ) : Sensor M R :=
  { s with concat := n, clean := List.replicate (K.measSize + n) 0 }

/-- `setNoise`, `resetNoise`, sensor-base.cpp 12-20. -/
def setNoise (s : Sensor M R) (n : Option (Noise R)) : Sensor M R := { s with noise := n }

/-- `setMatrixMode`, accelerometer-gyrometer.cpp 52-59 (the state size follows the mode). -/
def setMatrixMode (s : Sensor M R) (m : M) : Sensor M R := { s with mode := m }

/-! ## The inertial sensors -/

/-- `cst::gravity`, definitions.hpp 551. -/
noncomputable def gravity : V3 := ![0, 0, 9.8]

/-- `accelerationMeasure`, linear-acceleration.cpp 7-10. -/
noncomputable def accelerationMeasure (a : V3) (R : M3) : V3 := Rᵀ *ᵥ (a + gravity)
/-- `rotationVelocityMeasure`, rotation-velocity.cpp 7-10. -/
def rotationVelocityMeasure (w : V3) (R : M3) : V3 := Rᵀ *ᵥ w
/-- `earthLocalMagneticField_`, magnetic-field.cpp 8. -/
noncomputable def earthLocalMagneticField : V3 := ![0, 28, -33.7]
/-- `magneticFieldMeasure`, magnetic-field.cpp 10-13. -/
noncomputable def magneticFieldMeasure (R : M3) : V3 := Rᵀ *ᵥ earthLocalMagneticField

/-- Three consecutive coefficients. -/
def at3 (v : List ℝ) (i : ℕ) : V3 := ![v.getD i 0, v.getD (i + 1) 0, v.getD (i + 2) 0]
/-- A vector as a list of coefficients. -/
def toL (v : V3) : List ℝ := [v 0, v 1, v 2]

/-- Reading rotation, acceleration and angular velocity from the state, accelerometer-gyrometer.cpp 30-45. Coefficients of quaternions are stored
`x, y, z, w`; matrices by columns. -/
def readState (matrixMode : Bool) (v : List ℝ) : Res (M3 × V3 × V3) :=
  if !matrixMode then do
    Res.assert (decide (7 ≤ v.length))
    .ok ((⟨v.getD 3 0, v.getD 0 0, v.getD 1 0, v.getD 2 0⟩ : Quat).toMat, at3 v 4, at3 v (v.length - 3))
  else do
    Res.assert (decide (0 < v.length))
    if v.length < 9 then .ub
    else do
      Res.assert (decide (12 ≤ v.length))
      .ok (!![v.getD 0 0, v.getD 3 0, v.getD 6 0; v.getD 1 0, v.getD 4 0, v.getD 7 0; v.getD 2 0, v.getD 5 0, v.getD 8 0],
        at3 v 9, at3 v (v.length - 3))

/-- `AccelerometerGyrometer`, accelerometer-gyrometer.cpp 18-50; sizes: accelerometer-gyrometer.hpp. The mode is `matrixMode_`. -/
noncomputable def accGyro : Kind Bool where
  stateSize m := if m then 15 else 10
  measSize := 6
  compute m v := do
    let (R, a, w) ← readState m v
    .ok (toL (accelerationMeasure a R) ++ toL (rotationVelocityMeasure w R))

/-- `AccelerometerGyrometerMagnetometer`, accelerometer-gyrometer-magnetometer.cpp 21-53. The mode is `matrixMode_` and the member
`magne_`, which the constructor (lines 5-19) sets to (0, 32, -37). -/
noncomputable def accGyroMag : Kind (Bool × V3) where
  stateSize m := if m.1 then 15 else 10
  measSize := 9
  compute m v := do
    let (R, a, w) ← readState m.1 v
    .ok (toL (accelerationMeasure a R) ++ toL (rotationVelocityMeasure w R) ++ toL (magneticFieldMeasure R))

/-- The initial mode of the magnetometer class, accelerometer-gyrometer-magnetometer.cpp 13-18. -/
noncomputable def magMode : Bool × V3 := (false, ![0, 32, -37])

/-- The public methods. -/
inductive Op (M R : Type) where
  | setState (v : List ℝ) (k : Int)
  | getMeasurements (noisy : Bool)
  | concatenateWithInput (n : ℕ)
  | setNoise (n : Option (Noise R))
  | setMatrixMode (m : M)

/-- The effect of a call, and the returned measurement if there is one. -/
def exec (s : Sensor M R) (r : R) : Op M R → Res (Option (List ℝ) × Sensor M R × R)
  | .setState v k => do .ok (none, ← setState K s v k, r)
  | .getMeasurements b => do
    let (v, s, r) ← getMeasurements K s r b
    .ok (some v, s, r)
  | .concatenateWithInput n => .ok (none, concatenateWithInput K s n, r)
  | .setNoise n => .ok (none, setNoise s n, r)
  | .setMatrixMode m => .ok (none, setMatrixMode s m, r)

/-- A sequence of calls, with the list of the returned measurements. -/
def run (s : Sensor M R) (r : R) : List (Op M R) → Res (List (List ℝ) × Sensor M R × R)
  | [] => .ok ([], s, r)
  | op :: ops => do
    let (o, s, r) ← exec K s r op
    let (l, s, r) ← run s r ops
    .ok (o.toList ++ l, s, r)

end StateObs.Sensor
