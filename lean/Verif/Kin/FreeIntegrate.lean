import Verif.Kin.IntProps
/-!
# Property C123: the functions `integrateKinematics`
-/

namespace StateObs.Kine
open StateObs Matrix Rot

/-- `integrateKinematics(position, velocity, acceleration, orientation, rotationVelocity, rotationVelocityRate, dt)` with a quaternion,
rigid-body-kinematics.hxx 61-71. -/
noncomputable def integrateAccQuat (p v a : V3) (q : Quat) (ω ω' : V3) (dt : ℝ) : (V3 × V3) × Quat × V3 :=
  (integratePosVel p v a dt, integrateQuatVel q ω ω' dt)

/-- The same with a matrix, rigid-body-kinematics.hxx 73-83. -/
noncomputable def integrateAccMat (p v a : V3) (R : M3) (ω ω' : V3) (dt : ℝ) : (V3 × V3) × M3 × V3 :=
  (integratePosVel p v a dt, integrateMatVel R ω ω' dt)

/-- `integrateKinematics(position, velocity, orientation, rotationVelocity, dt)` with a matrix, rigid-body-kinematics.hxx 85-93. -/
noncomputable def integrateVelMat (p v : V3) (R : M3) (ω : V3) (dt : ℝ) : V3 × M3 := (integratePos p v dt, integrateMat R ω dt)

/-- The same with a quaternion, rigid-body-kinematics.hxx 95-103. -/
noncomputable def integrateVelQuat (p v : V3) (q : Quat) (ω : V3) (dt : ℝ) : V3 × Quat := (integratePos p v dt, integrateQuat q ω dt)

theorem rv_vecRot (v : V3) : rotationVectorToRotationMatrix v = vecRot v := by
  rw [vecRot]
  split_ifs with h
  · exact rv_below h
  · exact rv_exp (not_le.1 h)

/-- Unit quaternions stay unit quaternions, rotation matrices stay rotations, and the two versions agree. -/
theorem C123_agree (p v a : V3) (q : Quat) (hq : q.normSq = 1) (ω ω' : V3) (dt : ℝ) :
    (integrateAccQuat p v a q ω ω' dt).2.1.normSq = 1 ∧ IsRot (integrateAccMat p v a q.toMat ω ω' dt).2.1 ∧
    (integrateAccQuat p v a q ω ω' dt).2.1.toMat = (integrateAccMat p v a q.toMat ω ω' dt).2.1 ∧
    (integrateAccQuat p v a q ω ω' dt).2.2 = (integrateAccMat p v a q.toMat ω ω' dt).2.2 ∧
    (integrateAccQuat p v a q ω ω' dt).1 = (integrateAccMat p v a q.toMat ω ω' dt).1 ∧
    (integrateVelQuat p v q ω dt).2.normSq = 1 ∧ IsRot (integrateVelMat p v q.toMat ω dt).2 ∧
    (integrateVelQuat p v q ω dt).2.toMat = (integrateVelMat p v q.toMat ω dt).2 ∧
    (integrateVelQuat p v q ω dt).1 = (integrateVelMat p v q.toMat ω dt).1 := by
  have hR : IsRot q.toMat := Quat.toMat_isRot hq
  refine ⟨?_, (rv_isRot _).mul hR, ?_, rfl, rfl, ?_, (rv_isRot _).mul hR, ?_, rfl⟩
  · show (rotationVectorToQuaternion _ * q).normSq = 1
    rw [Quat.normSq_mul, rvq_unit, hq, one_mul]
  · show (rotationVectorToQuaternion _ * q).toMat = _
    rw [Quat.toMat_mul (rvq_unit _) hq, rvq_toMat]; rfl
  · show (rotationVectorToQuaternion _ * q).normSq = 1
    rw [Quat.normSq_mul, rvq_unit, hq, one_mul]
  · show (rotationVectorToQuaternion _ * q).toMat = _
    rw [Quat.toMat_mul (rvq_unit _) hq, rvq_toMat]; rfl

/-- Without accelerations, the two functions agree: they are the case of null accelerations. -/
theorem C123_no_acceleration (p v : V3) (R : M3) (ω : V3) (dt : ℝ) :
    (integrateAccMat p v 0 R ω 0 dt).1.1 = (integrateVelMat p v R ω dt).1 ∧ (integrateAccMat p v 0 R ω 0 dt).2.1 = (integrateVelMat p v R ω dt).2 ∧
    (integrateAccMat p v 0 R ω 0 dt).1.2 = v ∧ (integrateAccMat p v 0 R ω 0 dt).2.2 = ω := by
  simp [integrateAccMat, integrateVelMat, integratePosVel, integratePos, integrateMatVel, integrateMat]

/-- The functions do what `Kinematics::integrate` does to the same values. -/
theorem C123_kinematics (k : Kin) (p v a : V3) (R : M3) (ω ω' : V3) (dt : ℝ) (h : k.Has ⟨some p, some R, some v, some ω, some a, some ω'⟩) :
    ∃ k', k.integrate dt = .ok k' ∧ k'.Has ⟨some (integrateAccMat p v a R ω ω' dt).1.1, some (integrateAccMat p v a R ω ω' dt).2.1,
      some (integrateAccMat p v a R ω ω' dt).1.2, some (integrateAccMat p v a R ω ω' dt).2.2, some a, some ω'⟩ := by
  obtain ⟨k', e, h'⟩ := Kin.integrate_spec h dt
  refine ⟨k', e, ?_⟩
  convert! h' using 1
  have e5 : (0.5 * dt * dt : ℝ) = dt * dt / 2 := by ring
  simp [Kin.intValue, Kin.gain, Kin.velAfter, integrateAccMat, integratePosVel, integrateMatVel, rv_vecRot, e5]

/-- Integrating over `dt` and then over `-dt` is doing nothing, whatever the velocities and accelerations. -/
theorem C123_reversible (p v a : V3) (R : M3) (ω ω' : V3) (dt : ℝ) :
    (let x := integrateAccMat p v a R ω ω' dt
     integrateAccMat x.1.1 x.1.2 a x.2.1 x.2.2 ω' (-dt) = ((p, v), R, ω)) ∧
    (let x := integrateVelMat p v R ω dt
     integrateVelMat x.1 v x.2 ω (-dt) = (p, R)) := by
  have key : ∀ u w : V3, w = -u → rotationVectorToRotationMatrix w * (rotationVectorToRotationMatrix u * R) = R := by
    rintro u w rfl
    rw [← Matrix.mul_assoc, rv_neg, (rv_isRot u).orth, Matrix.one_mul]
  have hp : p + (dt • v + (0.5 * dt * dt) • a) + (-dt • (v + dt • a) + (0.5 * -dt * -dt) • a) = p := by
    ext i; simp only [Pi.add_apply, Pi.smul_apply, smul_eq_mul]; ring
  constructor
  · simp only [integrateAccMat, integratePosVel, integrateMatVel]
    rw [key _ _ (by ext i; simp only [Pi.add_apply, Pi.neg_apply, Pi.smul_apply, smul_eq_mul]; ring), hp]
    simp
  · simp only [integrateVelMat, integratePos, integrateMat]
    rw [key _ _ (by simp)]
    simp

/-- Constant linear acceleration, and constant angular velocity or acceleration along it: the results are the exact motion at time `dt`, except
that rotations of less than 1e-16 are neglected. -/
theorem C123_motion (p v a : V3) (R : M3) (u : V3) (m n : ℝ) : ∃ (P V : ℝ → V3) (Q : ℝ → M3), Deriv P V ∧ Deriv V (fun _ => a) ∧
    Turns Q (fun t => (m + t * n) • u) ∧ P 0 = p ∧ V 0 = v ∧ Q 0 = R ∧ ∀ dt,
      (integrateAccMat p v a R (m • u) (n • u) dt).1 = (P dt, V dt) ∧
      (integrateAccMat p v a R (m • u) (n • u) dt).2.2 = (m + dt * n) • u ∧
      (Kin.NotTiny ((dt * m + dt * dt / 2 * n) • u) → (integrateAccMat p v a R (m • u) (n • u) dt).2.1 = Q dt) := by
  refine ⟨fun t => p + (t • v + (0.5 * t * t) • a), fun t => v + t • a, fun t => NormedSpace.exp (hat ((t * m + t * t / 2 * n) • u)) * R,
    fun t => ?_, fun t => ?_, Kin.turns_axis u R _ _ fun t => ?_, by simp, by simp, by simp [hat_zero], fun t => ⟨rfl, ?_, fun ht => ?_⟩⟩
  · have h1 := (hasDerivAt_id t).smul_const v
    have h2 := (((hasDerivAt_id t).const_mul 0.5).mul (hasDerivAt_id t)).smul_const a
    convert! (h1.add h2).const_add p using 1
    simp only [id, one_mul, mul_one, one_smul]
    congr 2; ring
  · convert! ((hasDerivAt_id t).smul_const a).const_add v using 1
    rw [one_smul]
  · convert! ((hasDerivAt_id t).mul_const m).add ((((hasDerivAt_id t).mul (hasDerivAt_id t)).div_const 2).mul_const n) using 1
    simp only [id]; ring
  · show m • u + t • n • u = _
    rw [smul_smul, add_smul]
  · show rotationVectorToRotationMatrix (t • m • u + (0.5 * t * t) • n • u) * R = _
    rw [show t • m • u + (0.5 * t * t) • n • u = (t * m + t * t / 2 * n) • u by
      rw [smul_smul, smul_smul, ← add_smul]; congr 1; ring, rv_vecRot, Kin.vecRot_exp ht]

/-- A case of the hypotheses: a unit quaternion, a full kinematics, a rotation that is not neglected. -/
example : (⟨1, 0, 0, 0⟩ : Quat).normSq = 1 ∧ Kin.NotTiny (((1 : ℝ) * 1 + 1 * 1 / 2 * 2) • (![0, 0, 1] : V3)) := by
  refine ⟨by simp [Quat.normSq], Or.inr ?_⟩
  rw [nrm_smul]
  have : nrm (![0, 0, 1] : V3) = 1 := by simp [nrm, dot3]
  rw [this]; norm_num

end StateObs.Kine
