import Verif.Rot.Eigen
/-!
# Functions on rotations

include/state-observation/tools/rigid-body-kinematics.hxx 16-684 (free functions of `kine`). `doubles` are reals. Overloads that
write through a reference argument are modelled by the value they write.
-/

namespace StateObs.Kine
open StateObs Matrix Rot

/-- `cst::epsilonAngle`, definitions.hpp 554. -/
noncomputable def epsilonAngle : ℝ := 1e-16

/-- `cst::epsilon1`, definitions.hpp 557: the spacing of doubles at one. -/
noncomputable def epsilon1 : ℝ := 2⁻¹ ^ 52

/-- `Vector3::UnitX()`. -/
def ex : V3 := ![1, 0, 0]
/-- `Vector3::UnitY()`. -/
def ey : V3 := ![0, 1, 0]
/-- `Vector3::UnitZ()`. -/
def ez : V3 := ![0, 0, 1]

/-- `regulateOrientationVector`, rigid-body-kinematics.hxx 107-120. Converting a number that does not fit into `unsigned`
(32 bits) is undefined behaviour. -/
noncomputable def regulateOrientationVector (v : V3) : Res V3 :=
  let n2 := v ⬝ᵥ v
  if n2 > (3 / 2 * Real.pi) ^ 2 then
    let n := Real.sqrt n2
    let k := ⌈(n - Real.pi) / (2 * Real.pi)⌉₊
    if k < 2 ^ 32 then .ok ((n - k * 2 * Real.pi) • ((1 / n) • v)) else .ub
  else .ok v

/-- `rotationVectorToAngleAxis`, rigid-body-kinematics.hxx 123-135. -/
noncomputable def rotationVectorToAngleAxis (v : V3) : AngleAxis :=
  let angle2 := v ⬝ᵥ v
  if angle2 > epsilonAngle * epsilonAngle then
    let angle := Real.sqrt angle2
    ⟨angle, (1 / angle) • v⟩
  else ⟨0, ez⟩

/-- `rotationVectorToRotationMatrix`, rigid-body-kinematics.hxx 138-141. -/
noncomputable def rotationVectorToRotationMatrix (v : V3) : M3 := (rotationVectorToAngleAxis v).toMat

/-- `rotationVectorToQuaternion`, rigid-body-kinematics.hxx 144-147. -/
noncomputable def rotationVectorToQuaternion (v : V3) : Quat := Quat.ofAngleAxis (rotationVectorToAngleAxis v)

/-- `rotationMatrixToRotationVector`, rigid-body-kinematics.hxx 150-156. -/
noncomputable def rotationMatrixToRotationVector (R : M3) : V3 :=
  let a := AngleAxis.ofMat R
  a.angle • a.axis

/-- `quaternionToRotationVector`, rigid-body-kinematics.hxx 159-173. -/
noncomputable def quaternionToRotationVector (q : Quat) : V3 :=
  let a := AngleAxis.ofQuat q
  a.angle • a.axis

/-- `rotationMatrixToRollPitchYaw`, rigid-body-kinematics.hxx 177-200. -/
noncomputable def rotationMatrixToRollPitchYaw (R : M3) : V3 :=
  ![atan2 (R 2 1) (R 2 2), atan2 (-R 2 0) (Real.sqrt (R 2 1 * R 2 1 + R 2 2 * R 2 2)), atan2 (R 1 0) (R 0 0)]

/-- `rollPitchYawToQuaternion`, rigid-body-kinematics.hxx 216-225. -/
noncomputable def rollPitchYawToQuaternion (roll pitch yaw : ℝ) : Quat :=
  Quat.ofAngleAxis ⟨yaw, ez⟩ * Quat.ofAngleAxis ⟨pitch, ey⟩ * Quat.ofAngleAxis ⟨roll, ex⟩

/-- `rollPitchYawToRotationMatrix`, rigid-body-kinematics.hxx 204-212. -/
noncomputable def rollPitchYawToRotationMatrix (roll pitch yaw : ℝ) : M3 := (rollPitchYawToQuaternion roll pitch yaw).toMat

/-- `skewSymmetric`, rigid-body-kinematics.hxx 246-266. -/
def skewSymmetric (v : V3) : M3 := !![0, -v 2, v 1; v 2, 0, -v 0; -v 1, v 0, 0]

/-- `skewSymmetric2`, rigid-body-kinematics.hxx 269-288: `v * v.transpose()`, then its trace is subtracted from the diagonal. -/
def skewSymmetric2 (v : V3) : M3 :=
  let R := vecMulVec v v
  let n := R.trace
  !![R 0 0 - n, R 0 1, R 0 2; R 1 0, R 1 1 - n, R 1 2; R 2 0, R 2 1, R 2 2 - n]

/-- `homogeneousMatrixToVector6`, rigid-body-kinematics.hxx 291-300. The result is the pair of its segments. -/
noncomputable def homogeneousMatrixToVector6 (M : Matrix (Fin 4) (Fin 4) ℝ) : V3 × V3 :=
  let a := AngleAxis.ofMat (M.submatrix ![0, 1, 2] ![0, 1, 2])
  (fun i => M (![0, 1, 2] i) 3, a.angle • a.axis)

/-- A homogeneous matrix with identity last row: the assignments of blocks to `Matrix4::Identity()`. -/
def homo (R : M3) (t : V3) : Matrix (Fin 4) (Fin 4) ℝ :=
  !![R 0 0, R 0 1, R 0 2, t 0; R 1 0, R 1 1, R 1 2, t 1; R 2 0, R 2 1, R 2 2, t 2; 0, 0, 0, 1]

/-- `vector6ToHomogeneousMatrix`, rigid-body-kinematics.hxx 303-309. The argument is the pair of its segments. -/
noncomputable def vector6ToHomogeneousMatrix (p θ : V3) : Matrix (Fin 4) (Fin 4) ℝ := homo (rotationVectorToAngleAxis θ).toMat p

open Classical in
/-- `twoVectorsToRotationMatrix`, rigid-body-kinematics.hxx 311-335. -/
noncomputable def twoVectorsToRotationMatrix (v1 Rv1 : V3) : Res M3 :=
  if vecIsUnitary v1 epsilon1 ∧ vecIsUnitary Rv1 epsilon1 then
    let d := v1 ⬝ᵥ Rv1
    if 1 - d < epsilon1 then .ok 1
    else if 1 + d < epsilon1 then .exn
    else
      let c := v1 ⨯₃ Rv1
      .ok (1 + skewSymmetric c + ((1 - v1 ⬝ᵥ Rv1) / (c ⬝ᵥ c)) • skewSymmetric2 c)
  else .assertFail

/-- `isPureYaw`, rigid-body-kinematics.hxx 337-340. -/
def isPureYaw (R : M3) : Prop := muchSmaller1 (R 2 0) epsilon1 ∧ muchSmaller1 (R 2 1) epsilon1

open Classical in
/-- `getInvariantHorizontalVector`, rigid-body-kinematics.hxx 342-352. -/
noncomputable def getInvariantHorizontalVector (R : M3) : V3 := if isPureYaw R then ex else ![R 2 1, -R 2 0, 0]

open Classical in
/-- `getInvariantOrthogonalVector`, rigid-body-kinematics.hxx 354-365. -/
noncomputable def getInvariantOrthogonalVector (Rhat : M3) (Rtez : V3) : V3 :=
  let v := Rhat *ᵥ Rtez
  if muchSmaller1 (v 0) epsilon1 ∧ muchSmaller1 (v 1) epsilon1 then ex else ![v 1, -v 0, 0]

/-- A matrix given by its columns (`M << a, b, c` with column vectors). -/
def cols (a b c : V3) : M3 := !![a 0, b 0, c 0; a 1, b 1, c 1; a 2, b 2, c 2]
/-- A matrix given by its rows (`M << a.transpose(), b.transpose(), c.transpose()`). -/
def rows (a b c : V3) : M3 := !![a 0, a 1, a 2; b 0, b 1, b 2; c 0, c 1, c 2]

/-- `mergeTiltWithYaw`, rigid-body-kinematics.hxx 367-408. -/
noncomputable def mergeTiltWithYaw (Rtez : V3) (R2 : M3) (m : V3) : Res M3 :=
  let v1 := Rtez
  let mlxv1 := (R2ᵀ *ᵥ m) ⨯₃ v1
  let n2 := mlxv1 ⬝ᵥ mlxv1
  if n2 > epsilonAngle * epsilonAngle then
    let mlxv1 := (1 / Real.sqrt n2) • mlxv1
    .ok (cols (m ⨯₃ ez) m ez * rows mlxv1 (v1 ⨯₃ mlxv1) v1)
  else .exn

/-- `mergeRoll1Pitch1WithYaw2`, rigid-body-kinematics.hxx 410-413. -/
noncomputable def mergeRoll1Pitch1WithYaw2 (R1 R2 : M3) (v : V3) : Res M3 := mergeTiltWithYaw (R1ᵀ *ᵥ ez) R2 v

/-- `mergeTiltWithYawAxisAgnostic`, rigid-body-kinematics.hxx 415-442. -/
noncomputable def mergeTiltWithYawAxisAgnostic (Rtez : V3) (R2 : M3) : M3 :=
  let v1 := Rtez
  let m := vecNormalized (getInvariantOrthogonalVector R2 Rtez)
  let ml := R2ᵀ *ᵥ m
  cols (m ⨯₃ ez) m ez * rows (ml ⨯₃ v1) ml v1

/-- `mergeRoll1Pitch1WithYaw2AxisAgnostic`, rigid-body-kinematics.hxx 444-447. -/
noncomputable def mergeRoll1Pitch1WithYaw2AxisAgnostic (R1 R2 : M3) : M3 := mergeTiltWithYawAxisAgnostic (R1ᵀ *ᵥ ez) R2

/-- `rotationMatrixToAngle`, rigid-body-kinematics.hxx 449-453. -/
noncomputable def rotationMatrixToAngle (rotation : M3) (axis v : V3) : ℝ :=
  let p := axis ⨯₃ ((rotation *ᵥ v) ⨯₃ axis)
  atan2 ((v ⨯₃ p) ⬝ᵥ axis) (v ⬝ᵥ p)

/-- `rotationMatrixToYaw(rotation, v)`, rigid-body-kinematics.hxx 455-459. -/
noncomputable def rotationMatrixToYaw2 (R : M3) (v : Fin 2 → ℝ) : ℝ :=
  let r0 := R 0 0 * v 0 + R 0 1 * v 1
  let r1 := R 1 0 * v 0 + R 1 1 * v 1
  atan2 (v 0 * r1 - v 1 * r0) (v 0 * r0 + v 1 * r1)

/-- `rotationMatrixToYaw(rotation)`, rigid-body-kinematics.hxx 461-464. -/
noncomputable def rotationMatrixToYaw (R : M3) : ℝ := atan2 (R 1 0) (R 0 0)

open Classical in
/-- `rotationMatrixToYawAxisAgnostic`, rigid-body-kinematics.hxx 466-480. -/
noncomputable def rotationMatrixToYawAxisAgnostic (R : M3) : ℝ :=
  if isPureYaw R then rotationMatrixToYaw R
  else
    let v := getInvariantHorizontalVector R
    rotationMatrixToYaw2 R ![v 0, v 1]

/-- `isApproxAbs`, definitions.hxx 679-682. -/
def isApproxAbs (a b prec : ℝ) : Prop := |a - b| < prec

/-- `isRotationMatrix`, rigid-body-kinematics.hxx 497-503. -/
def isRotationMatrix (M : M3) (precision : ℝ) : Prop :=
  matIsUnitary M dummyPrecision ∧
    isApproxAbs (M 0 0 * M 1 1 - M 0 1 * M 1 0) (M 2 2) precision ∧
    isApproxAbs (M 1 0 * M 2 1 - M 1 1 * M 2 0) (M 0 2) precision

/-- `fixedPointRotationToTranslation`, rigid-body-kinematics.hxx 508-521: the three outputs. -/
def fixedPointRotationToTranslation (R : M3) (ω ω' fixedPoint : V3) : V3 × V3 × V3 :=
  let l := R *ᵥ fixedPoint
  (fixedPoint - l, -(ω ⨯₃ l), -(ω ⨯₃ (ω ⨯₃ l)) - ω' ⨯₃ l)

/-- `derivateRotationMultiplicative`, rigid-body-kinematics.hxx 525-545: `dRdR` and `dRddeltaR`. -/
noncomputable def derivateRotationMultiplicative (δ : V3) : M3 × M3 :=
  let d := nrm δ
  (rotationVectorToRotationMatrix δ,
    if d < epsilonAngle then 1
    else
      let d2 := d * d
      let d3 := d2 * d
      ((d - Real.sin d) / d3) • vecMulVec δ δ + (Real.sin d / d) • (1 : M3) + ((1 - Real.cos d) / d2) • skewSymmetric δ)

/-- `derivateRtvMultiplicative`, rigid-body-kinematics.hxx 549-552. -/
def derivateRtvMultiplicative (R : M3) (v : V3) : M3 := -Rᵀ * skewSymmetric v

/-- `derivateRotationFD(q1, q2, dt)`, rigid-body-kinematics.hxx 555-560. -/
noncomputable def derivateRotationFD (q1 q2 : Quat) (dt : ℝ) : V3 :=
  let aa := AngleAxis.ofQuat (q2 * q1.conj)
  (aa.angle / dt) • aa.axis

/-- `derivateRotationFD(o1, o2, dt)`, rigid-body-kinematics.hxx 563-569. -/
noncomputable def derivateRotationFDvec (o1 o2 : V3) (dt : ℝ) : V3 :=
  derivateRotationFD (rotationVectorToQuaternion o1) (rotationVectorToQuaternion o2) dt

/-- `derivateHomogeneousMatrixFD`, rigid-body-kinematics.hxx 571-585, for matrices built from rotation and translation. -/
noncomputable def derivateHomogeneousMatrixFD (R1 : M3) (t1 : V3) (R2 : M3) (t2 : V3) (dt : ℝ) : V3 × V3 :=
  let aa := AngleAxis.ofMat (R2 * R1ᵀ)
  ((1 / dt) • (t2 - t1), (aa.angle / dt) • aa.axis)

/-- The 18-dimensional states of `kine::indexes<rotationVector>` (rigid-body-kinematics.hpp): position, orientation, velocities and accelerations. -/
@[ext] structure St18 where
  pos : V3
  ori : V3
  linVel : V3
  angVel : V3
  linAcc : V3
  angAcc : V3

/-- `invertState`, rigid-body-kinematics.hxx 654-676. -/
noncomputable def invertState (s : St18) : St18 :=
  let r2 := (rotationVectorToAngleAxis (-s.ori)).toMat
  let o1 := skewSymmetric s.angVel
  let o1d := skewSymmetric s.angAcc
  { pos := -(r2 *ᵥ s.pos)
    linVel := r2 *ᵥ (o1 *ᵥ s.pos - s.linVel)
    linAcc := r2 *ᵥ (o1 *ᵥ ((2 : ℝ) • s.linVel - o1 *ᵥ s.pos) - s.linAcc + o1d *ᵥ s.pos)
    ori := -s.ori
    angVel := -(r2 *ᵥ s.angVel)
    angAcc := r2 *ᵥ (o1 *ᵥ s.angVel - s.angAcc) }

/-- `invertHomoMatrix`, rigid-body-kinematics.hxx 678-685. -/
def invertHomoMatrix (m : Matrix (Fin 4) (Fin 4) ℝ) : Matrix (Fin 4) (Fin 4) ℝ :=
  let rt : M3 := (m.submatrix ![0, 1, 2] ![0, 1, 2])ᵀ
  homo rt (-(rt *ᵥ fun i => m (![0, 1, 2] i) 3))

/-- `integrateKinematics(position, velocity, dt)`, rigid-body-kinematics.hxx 16-19. -/
def integratePos (p v : V3) (dt : ℝ) : V3 := p + dt • v

/-- `integrateKinematics(position, velocity, acceleration, dt)`, rigid-body-kinematics.hxx 21-25. -/
noncomputable def integratePosVel (p v a : V3) (dt : ℝ) : V3 × V3 := (p + (dt • v + (0.5 * dt * dt) • a), v + dt • a)

/-- `integrateKinematics(orientation, velocity, dt)` with a matrix, rigid-body-kinematics.hxx 27-30. -/
noncomputable def integrateMat (R : M3) (ω : V3) (dt : ℝ) : M3 := rotationVectorToRotationMatrix (dt • ω) * R

/-- `integrateKinematics(orientation, velocity, acceleration, dt)` with a matrix, rigid-body-kinematics.hxx 32-42. -/
noncomputable def integrateMatVel (R : M3) (ω ω' : V3) (dt : ℝ) : M3 × V3 :=
  (rotationVectorToRotationMatrix (dt • ω + (0.5 * dt * dt) • ω') * R, ω + dt • ω')

/-- `integrateKinematics(orientation, velocity, dt)` with a quaternion, rigid-body-kinematics.hxx 44-47. -/
noncomputable def integrateQuat (q : Quat) (ω : V3) (dt : ℝ) : Quat := rotationVectorToQuaternion (dt • ω) * q

/-- `integrateKinematics(orientation, velocity, acceleration, dt)` with a quaternion, rigid-body-kinematics.hxx 49-59. -/
noncomputable def integrateQuatVel (q : Quat) (ω ω' : V3) (dt : ℝ) : Quat × V3 :=
  (rotationVectorToQuaternion (dt • ω + (0.5 * dt * dt) • ω') * q, ω + dt • ω')

end StateObs.Kine
