import Verif.Rot.Lemmas
import Verif.Rot.MotionProps
/-!
# Property C75: finite differences of rotations
-/

namespace StateObs.Kine
open StateObs Matrix Rot

theorem fd_exp {a : AngleAxis} (h : a.axis ⬝ᵥ a.axis = 1) {dt : ℝ} (hdt : dt ≠ 0) :
    NormedSpace.exp (hat (dt • ((a.angle / dt) • a.axis))) = a.toMat := by
  rw [smul_smul, mul_div_cancel₀ _ hdt, exp_ofAngleAxis a h]

/-- **C75** The finite difference of two orientations is the constant angular velocity which goes from the first to the second in `dt`, by at most half
a turn. -/
theorem C75_quaternion (q1 q2 : Quat) (h1 : q1.normSq = 1) (h2 : q2.normSq = 1) (dt : ℝ) (hdt : 0 < dt) :
    NormedSpace.exp (hat (dt • derivateRotationFD q1 q2 dt)) * q1.toMat = q2.toMat ∧ dt * nrm (derivateRotationFD q1 q2 dt) ≤ Real.pi := by
  have hu : (q2 * q1.conj).normSq = 1 := by rw [Quat.normSq_mul, Quat.normSq_conj, h1, h2, one_mul]
  have ha := AngleAxis.ofQuat_axis_unit (q2 * q1.conj)
  constructor
  · rw [derivateRotationFD]
    rw [fd_exp ha hdt.ne', AngleAxis.toMat_ofQuat hu, ← Quat.toMat_mul hu h1, Quat.mul_assoc, Quat.conj_mul_self h1, Quat.mul_one]
  · have h0 := AngleAxis.ofQuat_angle_nonneg (q2 * q1.conj)
    have := AngleAxis.ofQuat_angle_le (q2 * q1.conj)
    rw [derivateRotationFD]
    rw [nrm_smul, nrm_eq_one.2 ha, mul_one, abs_of_nonneg (div_nonneg h0 hdt.le), mul_div_cancel₀ _ hdt.ne']
    exact this

/-- **C75** Integrating the finite difference gives the second orientation back (rotations above 1e-16). -/
theorem C75_integrate (q1 q2 : Quat) (h1 : q1.normSq = 1) (h2 : q2.normSq = 1) (dt : ℝ) (hdt : 0 < dt)
    (hb : 1e-16 < dt * nrm (derivateRotationFD q1 q2 dt)) : (integrateQuat q1 (derivateRotationFD q1 q2 dt) dt).toMat = q2.toMat := by
  rw [integrateQuat, Quat.toMat_mul (rvq_unit _) h1, rvq_toMat, rv_exp (by rw [nrm_smul, abs_of_pos hdt]; exact hb)]
  exact (C75_quaternion q1 q2 h1 h2 dt hdt).1

/-- **C75** The same from rotation vectors. -/
theorem C75_vector (o1 o2 : V3) (dt : ℝ) (hdt : 0 < dt) :
    NormedSpace.exp (hat (dt • derivateRotationFDvec o1 o2 dt)) * rotationVectorToRotationMatrix o1 = rotationVectorToRotationMatrix o2 := by
  have := (C75_quaternion _ _ (rvq_unit o1) (rvq_unit o2) dt hdt).1
  rwa [rvq_toMat, rvq_toMat] at this

/-- **C75** The same from homogeneous matrices, with the translations. -/
theorem C75_homogeneous (R1 R2 : M3) (t1 t2 : V3) (h1 : IsRot R1) (h2 : IsRot R2) (dt : ℝ) (hdt : 0 < dt) :
    NormedSpace.exp (hat (dt • (derivateHomogeneousMatrixFD R1 t1 R2 t2 dt).2)) * R1 = R2 ∧
      t1 + dt • (derivateHomogeneousMatrixFD R1 t1 R2 t2 dt).1 = t2 := by
  have hr : IsRot (R2 * R1ᵀ) := h2.mul h1.transpose
  constructor
  · rw [derivateHomogeneousMatrixFD]
    simp only []
    rw [fd_exp (a := AngleAxis.ofMat (R2 * R1ᵀ)) (AngleAxis.ofQuat_axis_unit _) hdt.ne', AngleAxis.toMat_ofMat hr, Matrix.mul_assoc, h1.1, Matrix.mul_one]
  · rw [derivateHomogeneousMatrixFD]
    simp only []
    rw [smul_smul, mul_one_div_cancel hdt.ne', one_smul]
    abel

end StateObs.Kine
