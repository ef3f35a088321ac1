import Verif.Rot.Lemmas
import Mathlib.Tactic.NormNum.RealSqrt
/-!
# Properties C34 to C38, C41, C42: conversions between representations of rotations
-/

namespace StateObs.Kine
open StateObs Matrix Rot

/-- **C34** Whatever the vector, the matrix is a rotation, the quaternion is a unit quaternion and both act in the same way on
vectors (`toMat` is the matrix Eigen computes from the quaternion); negating the vector inverts the rotation. -/
theorem C34_rotation (v : V3) :
    IsRot (rotationVectorToRotationMatrix v) ∧ (rotationVectorToQuaternion v).normSq = 1 ∧
    (rotationVectorToQuaternion v).toMat = rotationVectorToRotationMatrix v ∧
    rotationVectorToRotationMatrix (-v) = (rotationVectorToRotationMatrix v)⁻¹ :=
  ⟨rv_isRot v, rvq_unit v, rvq_toMat v, by rw [rv_neg, (rv_isRot v).inv]⟩

/-- **C34** It is the exponential of the cross product matrix of the vector, except for vectors of norm at most `1e-16`, which
give the identity. -/
theorem C34_exp (v : V3) : rotationVectorToRotationMatrix v = if nrm v ≤ 1e-16 then 1 else NormedSpace.exp (hat v) := by
  have e : (1e-16 : ℝ) = epsilonAngle := rfl
  rw [e]
  split
  · rename_i h; exact rv_below h
  · rename_i h; exact rv_exp (not_le.1 h)

/-- **C34** The rotation leaves the vector fixed, and turns every vector orthogonal to it by the angle `|v|`. -/
theorem C34_geometry (v w : V3) (h : 1e-16 < nrm v) (hw : v ⬝ᵥ w = 0) :
    rotationVectorToRotationMatrix v *ᵥ v = v ∧
    rotationVectorToRotationMatrix v *ᵥ w = Real.cos (nrm v) • w + (Real.sin (nrm v) / nrm v) • (v ⨯₃ w) := by
  have h' : epsilonAngle < nrm v := h
  have hp := epsilonAngle_pos.trans h'
  rw [rotationVectorToRotationMatrix, aa_above h']
  refine ⟨?_, ?_⟩
  · have := AngleAxis.toMat_axis (t := nrm v) (unit_normalized hp)
    rw [mulVec_smul] at this
    have h2 := congrArg (fun z => nrm v • z) this
    simpa [smul_smul, hp.ne'] using h2
  · rw [AngleAxis.toMat_mulVec]
    simp only [smul_dotProduct, hw, smul_cross, smul_zero, mul_zero, smul_smul,
      mul_one_div, zero_div, zero_smul, add_zero]

/-- **C35** From a vector to the quaternion and back. -/
theorem C35_vector (v : V3) (h0 : 1e-16 < nrm v) (h1 : nrm v < Real.pi) :
    quaternionToRotationVector (rotationVectorToQuaternion v) = v := by
  have h' : epsilonAngle < nrm v := h0
  have hp := epsilonAngle_pos.trans h'
  simp only [quaternionToRotationVector, rotationVectorToQuaternion, aa_above h',
    AngleAxis.ofQuat_ofAngleAxis (unit_normalized hp) hp h1]
  rw [smul_smul, mul_one_div_cancel hp.ne', one_smul]

/-- **C35** At or below the threshold the result is zero. -/
theorem C35_vector_small (v : V3) (h : nrm v ≤ 1e-16) : quaternionToRotationVector (rotationVectorToQuaternion v) = 0 := by
  have h' : nrm v ≤ epsilonAngle := h
  simp only [quaternionToRotationVector, rotationVectorToQuaternion, aa_below h']
  have : nrm (Quat.ofAngleAxis ⟨0, ez⟩).vec = 0 := by
    rw [nrm_eq_zero]; apply ext3 <;> simp [Quat.ofAngleAxis, Quat.vec]
  simp [AngleAxis.ofQuat, this]

/-- **C35** From a unit quaternion to the vector and back: equal if the scalar part is nonnegative, opposite otherwise. The
vector has norm at most `π`. -/
theorem C35_quaternion (q : Quat) (hq : q.normSq = 1) (h : 1e-16 < nrm (quaternionToRotationVector q)) :
    rotationVectorToQuaternion (quaternionToRotationVector q) = (if q.w < 0 then Quat.scale (-1) q else q) ∧
    nrm (quaternionToRotationVector q) ≤ Real.pi := by
  have h' : epsilonAngle < nrm (quaternionToRotationVector q) := h
  have hu := AngleAxis.ofQuat_axis_unit q
  have h0 := AngleAxis.ofQuat_angle_nonneg q
  have e : nrm (quaternionToRotationVector q) = (AngleAxis.ofQuat q).angle := nrm_angle_axis hu h0
  rw [e] at h'
  refine ⟨?_, by rw [e]; exact AngleAxis.ofQuat_angle_le q⟩
  rw [rotationVectorToQuaternion, quaternionToRotationVector, aa_of_angle_axis hu h', AngleAxis.ofAngleAxis_ofQuat hq]
  split
  · rfl
  · rw [if_neg]
    intro hn
    have : (AngleAxis.ofQuat q).angle = 0 := by simp [AngleAxis.ofQuat, hn]
    rw [this] at h'
    exact absurd h' (not_lt.2 epsilonAngle_pos.le)

/-- **C35** The vector of a unit quaternion is a logarithm of its rotation, of norm at most `π`, without any threshold. -/
theorem C35_log (q : Quat) (hq : q.normSq = 1) :
    NormedSpace.exp (hat (quaternionToRotationVector q)) = q.toMat ∧ nrm (quaternionToRotationVector q) ≤ Real.pi := by
  have hu := AngleAxis.ofQuat_axis_unit q
  refine ⟨?_, ?_⟩
  · rw [quaternionToRotationVector, exp_ofAngleAxis _ hu, AngleAxis.toMat_ofQuat hq]
  · rw [quaternionToRotationVector, nrm_angle_axis hu (AngleAxis.ofQuat_angle_nonneg q)]
    exact AngleAxis.ofQuat_angle_le q

/-- **C35** The same for rotation matrices. -/
theorem C35_matrix (R : M3) (hR : IsRot R) :
    NormedSpace.exp (hat (rotationMatrixToRotationVector R)) = R ∧ nrm (rotationMatrixToRotationVector R) ≤ Real.pi ∧
    (1e-16 < nrm (rotationMatrixToRotationVector R) → rotationVectorToRotationMatrix (rotationMatrixToRotationVector R) = R) := by
  have hs := Quat.ofMat_spec hR
  have h := C35_log (Quat.ofMat R) hs.1
  rw [hs.2] at h
  refine ⟨h.1, h.2, fun hn => ?_⟩
  rw [rv_exp hn]; exact h.1

/-- **C35** From a vector to the matrix and back. -/
theorem C35_vector_matrix (v : V3) (h0 : 1e-16 < nrm v) (h1 : nrm v < Real.pi) :
    rotationMatrixToRotationVector (rotationVectorToRotationMatrix v) = v := by
  have hs := Quat.ofMat_spec (rv_isRot v)
  have hm : (Quat.ofMat (rotationVectorToRotationMatrix v)).toMat = (rotationVectorToQuaternion v).toMat := by
    rw [hs.2, rvq_toMat]
  have hp := epsilonAngle_pos.trans h0
  have hwpos : 0 < (rotationVectorToQuaternion v).w := by
    rw [rotationVectorToQuaternion, aa_above h0]
    exact Real.cos_pos_of_mem_Ioo ⟨by simp only; linarith, by simp only; linarith⟩
  have h35 := C35_vector v h0 h1
  rcases Quat.toMat_inj hs.1 (rvq_unit v) hm with e | e
  · rw [rotationMatrixToRotationVector, AngleAxis.ofMat, e]; exact h35
  · rw [rotationMatrixToRotationVector, AngleAxis.ofMat, e]
    refine Eq.trans ?_ h35
    -- the angle-axis of the opposite quaternion is the same
    generalize rotationVectorToQuaternion v = q at *
    have hv : (Quat.scale (-1) q).vec = -q.vec := by apply ext3 <;> simp [Quat.scale, Quat.vec]
    have hw : (Quat.scale (-1) q).w = -q.w := by simp [Quat.scale]
    simp only [quaternionToRotationVector, AngleAxis.ofQuat, hv, hw, nrm_neg, abs_neg, neg_lt_zero, hwpos, if_true, not_lt.2 hwpos.le, if_false]
    split
    · simp only [smul_neg, one_div, inv_neg, neg_smul, neg_neg]
    · rfl

/-- **C36** The matrix is the product of the elementary rotations about z, y and x. -/
theorem C36_product (r p y : ℝ) : rollPitchYawToRotationMatrix r p y = rotZ y * rotY p * rotX r := by
  have hz : ez ⬝ᵥ ez = 1 := ez_unit
  have hy : ey ⬝ᵥ ey = 1 := by simp [dot3, ey]
  have hx : ex ⬝ᵥ ex = 1 := by simp [dot3, ex]
  have nz := AngleAxis.normSq_ofAngleAxis (a := ⟨y, ez⟩) hz
  have ny := AngleAxis.normSq_ofAngleAxis (a := ⟨p, ey⟩) hy
  have nx := AngleAxis.normSq_ofAngleAxis (a := ⟨r, ex⟩) hx
  rw [rollPitchYawToRotationMatrix, rollPitchYawToQuaternion, Quat.toMat_mul (by rw [Quat.normSq_mul, nz, ny, mul_one]) nx,
    Quat.toMat_mul nz ny, AngleAxis.toMat_ofAngleAxis hz, AngleAxis.toMat_ofAngleAxis hy, AngleAxis.toMat_ofAngleAxis hx]
  have ez' : AngleAxis.toMat ⟨y, ez⟩ = rotZ y := by
    apply mext3; intro i j; fin_cases i <;> fin_cases j <;> simp [AngleAxis.toMat, rotZ, ez]
  have ey' : AngleAxis.toMat ⟨p, ey⟩ = rotY p := by
    apply mext3; intro i j; fin_cases i <;> fin_cases j <;> simp [AngleAxis.toMat, rotY, ey]
  have ex' : AngleAxis.toMat ⟨r, ex⟩ = rotX r := by
    apply mext3; intro i j; fin_cases i <;> fin_cases j <;> simp [AngleAxis.toMat, rotX, ex]
  rw [ez', ey', ex']

/-- **C36** The angles are recovered, roll and yaw in `(-π, π]`, pitch in `(-π/2, π/2)`. -/
theorem C36_angles (r p y : ℝ) (hr : r ∈ Set.Ioc (-Real.pi) Real.pi) (hp : p ∈ Set.Ioo (-(Real.pi / 2)) (Real.pi / 2))
    (hy : y ∈ Set.Ioc (-Real.pi) Real.pi) :
    rotationMatrixToRollPitchYaw (rollPitchYawToRotationMatrix r p y) = ![r, p, y] := by
  have hc := Real.cos_pos_of_mem_Ioo hp
  rw [C36_product]
  have e21 : (rotZ y * rotY p * rotX r) 2 1 = Real.cos p * Real.sin r := by simp [mul3, rotX, rotY, rotZ]
  have e22 : (rotZ y * rotY p * rotX r) 2 2 = Real.cos p * Real.cos r := by simp [mul3, rotX, rotY, rotZ]
  have e20 : (rotZ y * rotY p * rotX r) 2 0 = -Real.sin p := by simp [mul3, rotX, rotY, rotZ]
  have e10 : (rotZ y * rotY p * rotX r) 1 0 = Real.cos p * Real.sin y := by simp [mul3, rotX, rotY, rotZ]; ring
  have e00 : (rotZ y * rotY p * rotX r) 0 0 = Real.cos p * Real.cos y := by simp [mul3, rotX, rotY, rotZ]; ring
  have es : Real.sqrt (Real.cos p * Real.sin r * (Real.cos p * Real.sin r) + Real.cos p * Real.cos r * (Real.cos p * Real.cos r)) = Real.cos p := by
    rw [Real.sqrt_eq_iff_mul_self_eq_of_pos hc]
    linear_combination -(Real.cos p) ^ 2 * Real.sin_sq_add_cos_sq r
  rw [rotationMatrixToRollPitchYaw, e21, e22, e20, e10, e00, es, AngleAxis.atan2_polar hc hr, AngleAxis.atan2_polar hc hy, neg_neg]
  have := AngleAxis.atan2_polar (r := 1) (θ := p) one_pos ⟨by linarith [hp.1, Real.pi_pos], by linarith [hp.2, Real.pi_pos]⟩
  rw [one_mul, one_mul] at this
  rw [this]

/-- **C36** Conversely every rotation away from the vertical is rebuilt from its angles. -/
theorem C36_matrix (R : M3) (h : IsRot R) (h20 : |R 2 0| < 1) :
    rollPitchYawToRotationMatrix (rotationMatrixToRollPitchYaw R 0) (rotationMatrixToRollPitchYaw R 1)
      (rotationMatrixToRollPitchYaw R 2) = R := by
  have hr := h.r22
  have hpos : 0 < R 2 1 * R 2 1 + R 2 2 * R 2 2 := by
    have : R 2 0 ^ 2 < 1 := by rw [← sq_abs]; nlinarith [abs_nonneg (R 2 0)]
    nlinarith
  rw [C36_product]
  simp only [rotationMatrixToRollPitchYaw, cons_val_zero, cons_val_one, cons_val]
  have hc2 : Real.sqrt (R 2 1 * R 2 1 + R 2 2 * R 2 2) * Real.sqrt (R 2 1 * R 2 1 + R 2 2 * R 2 2) = R 2 1 * R 2 1 + R 2 2 * R 2 2 :=
    Real.mul_self_sqrt hpos.le
  have hc0 : 0 < Real.sqrt (R 2 1 * R 2 1 + R 2 2 * R 2 2) := Real.sqrt_pos.2 hpos
  generalize Real.sqrt (R 2 1 * R 2 1 + R 2 2 * R 2 2) = c at hc2 hc0
  have polar : ∀ a b : ℝ, a * a + b * b = c * c → Real.cos (atan2 a b) = b / c ∧ Real.sin (atan2 a b) = a / c := by
    intro a b hab
    have hn : ‖(⟨b, a⟩ : ℂ)‖ = c := by
      rw [Complex.norm_def, Complex.normSq_mk, show b * b + a * a = c * c by linarith, Real.sqrt_mul_self hc0.le]
    have h0 : (⟨b, a⟩ : ℂ) ≠ 0 := by intro e; rw [e] at hn; simp at hn; linarith
    exact ⟨by rw [atan2, Complex.cos_arg h0, hn], by rw [atan2, Complex.sin_arg, hn]⟩
  obtain ⟨cr, sr⟩ := polar (R 2 1) (R 2 2) hc2.symm
  obtain ⟨cy, sy⟩ := polar (R 1 0) (R 0 0) (by linear_combination h.o00 - h.r22 - hc2)
  have cp : Real.cos (atan2 (-R 2 0) c) = c := AngleAxis.cos_atan2 (by linear_combination hc2 + h.r22)
  have sp : Real.sin (atan2 (-R 2 0) c) = -R 2 0 := AngleAxis.sin_atan2 (by linear_combination hc2 + h.r22)
  have hc : c ≠ 0 := hc0.ne'
  apply mext3; intro i j
  fin_cases i <;> fin_cases j <;> simp [mul3, rotX, rotY, rotZ, cr, sr, cy, sy, cp, sp] <;> field_simp
  · linear_combination (-R 0 1) * hc2 - R 2 1 * h.r02 + R 2 2 * h.a10
  · linear_combination (-R 0 2) * hc2 - R 2 2 * h.r02 - R 2 1 * h.a10
  · linear_combination (-R 1 1) * hc2 - R 2 1 * h.r12 - R 2 2 * h.a00
  · linear_combination (-R 1 2) * hc2 - R 2 2 * h.r12 + R 2 1 * h.a00

/-- **C37** `skewSymmetric` is the matrix of the cross product, antisymmetric, and `skewSymmetric2` its square. -/
theorem C37_skew (v w : V3) :
    skewSymmetric v *ᵥ w = v ⨯₃ w ∧ (skewSymmetric v)ᵀ = -skewSymmetric v ∧ skewSymmetric2 v = skewSymmetric v * skewSymmetric v ∧
    skewSymmetric2 v *ᵥ w = v ⨯₃ (v ⨯₃ w) := by
  have e : ∀ v, skewSymmetric v = hat v := fun v => (hat_eq v).symm
  have e2 : skewSymmetric2 v = hat v * hat v := by
    apply mext3; intro i j
    rw [mul3, hat_eq]
    fin_cases i <;> fin_cases j <;> simp [skewSymmetric2, vecMulVec, trace_fin_three] <;> ring
  refine ⟨by rw [e, hat_mulVec], by rw [e, hat_transpose], by rw [e, e2], ?_⟩
  rw [e2, ← mulVec_mulVec, hat_mulVec, hat_mulVec]

/-- Two unit vectors are close to each other or to opposite of each other when their scalar product is close to one or minus one. -/
theorem dist_of_dot {a b : V3} (ha : a ⬝ᵥ a = 1) (hb : b ⬝ᵥ b = 1) : nrm (a - b) ^ 2 = 2 * (1 - a ⬝ᵥ b) := by
  rw [nrm_sq]
  simp only [dot3, Pi.sub_apply] at *
  linear_combination ha + hb

/-- **C38** For unit vectors, not nearly equal and not nearly opposite, the call returns a rotation, which maps the first to the
second and leaves fixed their common normal (so that it is the rotation of smallest angle). -/
theorem C38_rotation (a b : V3) (ha : a ⬝ᵥ a = 1) (hb : b ⬝ᵥ b = 1) (h1 : epsilon1 ≤ 1 - a ⬝ᵥ b) (h2 : epsilon1 ≤ 1 + a ⬝ᵥ b) :
    ∃ R, twoVectorsToRotationMatrix a b = .ok R ∧ IsRot R ∧ R *ᵥ a = b ∧ R *ᵥ (a ⨯₃ b) = a ⨯₃ b := by
  have hu : vecIsUnitary a epsilon1 ∧ vecIsUnitary b epsilon1 := by
    simp [vecIsUnitary, eigenIsApprox, ha, hb, epsilon1_pos.le]
  have he := epsilon1_pos
  refine ⟨_, by rw [twoVectorsToRotationMatrix, if_pos hu, if_neg (not_lt.2 h1), if_neg (not_lt.2 h2)], ?_⟩
  set c := a ⨯₃ b with hc
  set d := a ⬝ᵥ b with hd
  have hcc : c ⬝ᵥ c = 1 - d ^ 2 := by
    rw [hc, cross_dot_cross, ha, hb, dotProduct_comm b a]; ring
  have hcpos : 0 < c ⬝ᵥ c := by rw [hcc]; nlinarith
  have hc0 : c ≠ 0 := by intro e; rw [e] at hcpos; simp at hcpos
  have hn := nrm_pos hc0
  have hS : skewSymmetric c = hat c := (hat_eq c).symm
  have hS2 : skewSymmetric2 c = hat c * hat c := by rw [← hS]; exact (C37_skew c 0).2.2.1
  -- the angle-axis of the rotation
  have hcs : d ^ 2 + nrm c ^ 2 = 1 := by rw [nrm_sq, hcc]; ring
  have hM : 1 + skewSymmetric c + ((1 - d) / (c ⬝ᵥ c)) • skewSymmetric2 c = AngleAxis.toMat ⟨atan2 (nrm c) d, (1 / nrm c) • c⟩ := by
    rw [AngleAxis.toMat_rodrigues]
    simp only [AngleAxis.cos_atan2 hcs, AngleAxis.sin_atan2 hcs]
    rw [hS, hS2, AngleAxis.hat_mul_hat, hat_smul, smul_smul, mul_one_div_cancel hn.ne', one_smul, ← nrm_mul_self]
    apply mext3; intro i j
    simp [vecMulVec]
    field_simp
    ring
  rw [hM]
  refine ⟨AngleAxis.toMat_isRot (unit_normalized hn), ?_, ?_⟩
  · rw [AngleAxis.toMat_mulVec, AngleAxis.cos_atan2 hcs, AngleAxis.sin_atan2 hcs, smul_cross, smul_smul, mul_one_div_cancel hn.ne', one_smul,
      smul_dotProduct]
    have h0 : c ⬝ᵥ a = 0 := by rw [hc, dotProduct_comm]; exact dot_self_cross a b
    have h1 : c ⨯₃ a = b - d • a := by
      rw [hc, hd]
      apply ext3 <;> simp only [cross0, cross1, cross2, Pi.sub_apply, Pi.smul_apply, smul_eq_mul, dot3] at * <;>
        [linear_combination b 0 * ha; linear_combination b 1 * ha; linear_combination b 2 * ha]
    rw [h0, h1]
    simp
  · have := AngleAxis.toMat_axis (t := atan2 (nrm c) d) (unit_normalized hn)
    rw [mulVec_smul] at this
    have h2 := congrArg (fun z => nrm c • z) this
    simpa [smul_smul, hn.ne'] using h2

/-- **C38** For nearly equal unit vectors (distance below `√(2ε)`) the call returns the identity. -/
theorem C38_equal (a b : V3) (ha : a ⬝ᵥ a = 1) (hb : b ⬝ᵥ b = 1) (h : 1 - a ⬝ᵥ b < epsilon1) :
    twoVectorsToRotationMatrix a b = .ok 1 ∧ nrm ((1 : M3) *ᵥ a - b) ^ 2 < 2 * epsilon1 := by
  have hu : vecIsUnitary a epsilon1 ∧ vecIsUnitary b epsilon1 := by
    simp [vecIsUnitary, eigenIsApprox, ha, hb, epsilon1_pos.le]
  refine ⟨by rw [twoVectorsToRotationMatrix, if_pos hu, if_pos h], ?_⟩
  rw [one_mulVec, dist_of_dot ha hb]; linarith

/-- **C38** The call throws exactly when the unit vectors are nearly opposite: the distance from one to the opposite of the
other is below `√(2ε)`. -/
theorem C38_throws (a b : V3) (ha : a ⬝ᵥ a = 1) (hb : b ⬝ᵥ b = 1) :
    twoVectorsToRotationMatrix a b = .exn ↔ nrm (a - -b) ^ 2 < 2 * epsilon1 := by
  have hu : vecIsUnitary a epsilon1 ∧ vecIsUnitary b epsilon1 := by
    simp [vecIsUnitary, eigenIsApprox, ha, hb, epsilon1_pos.le]
  have he := epsilon1_lt
  rw [dist_of_dot ha (by simpa using hb), dotProduct_neg, twoVectorsToRotationMatrix, if_pos hu]
  dsimp only
  split
  · constructor
    · intro h; cases h
    · intro h; exfalso; linarith
  · split
    · constructor
      · intro _; linarith
      · intro _; rfl
    · constructor
      · intro h; cases h
      · intro h; exfalso; linarith

/-- **C38** The hypotheses are met by the first two unit vectors; the result is the quarter turn about z. -/
example : ∃ R, twoVectorsToRotationMatrix ex ey = .ok R ∧ R *ᵥ ex = ey := by
  obtain ⟨R, h, _, h2, _⟩ := C38_rotation ex ey (by simp [dot3, ex]) (by simp [dot3, ey])
    (by have := epsilon1_lt; simp [dot3, ex, ey]; linarith) (by have := epsilon1_lt; simp [dot3, ex, ey]; linarith)
  exact ⟨R, h, h2⟩

/-- Orthogonal matrices: their columns are orthonormal. -/
theorem matIsUnitary_of_orth {M : M3} (h : Mᵀ * M = 1) {p : ℝ} (hp : 0 ≤ p) : matIsUnitary M p := by
  have e : ∀ i j, Mᵀ i ⬝ᵥ Mᵀ j = (1 : M3) i j := fun i j => by
    rw [← h]; rfl
  intro i
  refine ⟨?_, fun j hj => ?_⟩
  · rw [e i i]; simp [eigenIsApprox, hp]
  · rw [e i j, one_apply_ne (by rintro rfl; exact lt_irrefl _ hj)]; simpa [muchSmaller1] using hp

/-- **C41** The claim: for exactly orthogonal matrices the test (with any positive precision, in particular the default one) is
true exactly for determinant one. -/
def C41_statement : Prop := ∀ (M : M3) (p : ℝ), Mᵀ * M = 1 → 0 < p → (isRotationMatrix M p ↔ M.det = 1)

/-- **C41** Rotations are recognised, and so are all orthogonal matrices whose last column is not close to `±e_y`. What is
missing is false: see `C41_false`. -/
theorem C41_partial (M : M3) (p : ℝ) (h : Mᵀ * M = 1) (hp : 0 < p) :
    (M.det = 1 → isRotationMatrix M p) ∧ ((p ≤ 2 * |M 0 2| ∨ p ≤ 2 * |M 2 2|) → (isRotationMatrix M p ↔ M.det = 1)) := by
  have hdet : M.det = 1 → isRotationMatrix M p := by
    intro hd
    have hR : IsRot M := ⟨h, hd⟩
    refine ⟨matIsUnitary_of_orth h (by norm_num [dummyPrecision]), ?_, ?_⟩
    · rw [hR.a22]; simpa [isApproxAbs] using hp
    · rw [hR.a02]; simpa [isApproxAbs] using hp
  refine ⟨hdet, fun hbig => ⟨fun hrot => ?_, hdet⟩⟩
  have hd2 : M.det * M.det = 1 := by
    have := congrArg det h
    rwa [det_mul, det_transpose, det_one] at this
  have hd : (M.det - 1) * (M.det + 1) = 0 := by linear_combination hd2
  rcases mul_eq_zero.1 hd with hd | hd
  · linarith
  · exfalso
    have hN : IsRot (-M) := by
      refine ⟨by simpa using h, ?_⟩
      rw [det_neg]; simp; linarith
    have h22 := hN.a22
    have h02 := hN.a02
    simp only [Pi.neg_apply, Matrix.neg_apply] at h22 h02
    obtain ⟨_, t22, t02⟩ := hrot
    simp only [isApproxAbs] at t22 t02
    rw [show M 0 0 * M 1 1 - M 0 1 * M 1 0 - M 2 2 = -(2 * M 2 2) by linear_combination h22, abs_neg, abs_mul, abs_two] at t22
    rw [show M 1 0 * M 2 1 - M 1 1 * M 2 0 - M 0 2 = -(2 * M 0 2) by linear_combination h02, abs_neg, abs_mul, abs_two] at t02
    rcases hbig with hb | hb <;> linarith

/-- **C41** Exchanging the axes y and z is a reflection, and passes the test, whatever the precision. -/
theorem C41_false (p : ℝ) (hp : 0 < p) :
    let M : M3 := !![1, 0, 0; 0, 0, 1; 0, 1, 0]
    Mᵀ * M = 1 ∧ M.det = -1 ∧ isRotationMatrix M p := by
  intro M
  have h1 : Mᵀ * M = 1 := by
    apply mext3; intro i j
    rw [mul3]
    fin_cases i <;> fin_cases j <;> simp [M]
  refine ⟨h1, by rw [det_fin_three]; simp [M], matIsUnitary_of_orth h1 (by norm_num [dummyPrecision]), ?_, ?_⟩ <;>
    simpa [isApproxAbs, M] using hp

theorem C41_negation : ¬C41_statement := by
  intro h
  obtain ⟨h1, h2, h3⟩ := C41_false 1 one_pos
  have := (h _ 1 h1 one_pos).1 h3
  rw [h2] at this
  norm_num at this

/-- **C42** The claim, for all vectors. -/
def C42_statement : Prop := ∀ v : V3, ∃ w, regulateOrientationVector v = .ok w ∧
    NormedSpace.exp (hat w) = NormedSpace.exp (hat v) ∧ nrm w ≤ 3 / 2 * Real.pi ∧ (w ≠ v → nrm w ≤ Real.pi)

/-- **C42** All vectors of norm up to `π (2³³ - 1)` (about four billion turns) are regulated. Beyond, the conversion to `unsigned`
overflows: see `C42_false`. -/
theorem C42_partial (v : V3) (hv : nrm v ≤ Real.pi * (2 ^ 33 - 1)) : ∃ w, regulateOrientationVector v = .ok w ∧
    NormedSpace.exp (hat w) = NormedSpace.exp (hat v) ∧ nrm w ≤ 3 / 2 * Real.pi ∧ (w ≠ v → nrm w ≤ Real.pi) := by
  have hpi := Real.pi_pos
  by_cases h : v ⬝ᵥ v > (3 / 2 * Real.pi) ^ 2
  · have hn : 3 / 2 * Real.pi < nrm v := by
      rw [nrm]; exact Real.lt_sqrt_of_sq_lt h
    have hn0 : 0 < nrm v := by linarith
    set k := ⌈(nrm v - Real.pi) / (2 * Real.pi)⌉₊ with hk
    have hk1 : (nrm v - Real.pi) / (2 * Real.pi) ≤ k := Nat.le_ceil _
    have hk2 : (k : ℝ) < (nrm v - Real.pi) / (2 * Real.pi) + 1 := Nat.ceil_lt_add_one (by apply div_nonneg <;> linarith)
    have hk3 : k < 2 ^ 32 := by
      rw [div_add_one (by positivity), lt_div_iff₀ (by positivity)] at hk2
      have : (k : ℝ) < 2 ^ 32 := by
        by_contra hc
        have := mul_le_mul_of_nonneg_right (not_lt.1 hc) (by positivity : 0 ≤ 2 * Real.pi)
        nlinarith
      exact_mod_cast this
    rw [div_le_iff₀ (by positivity)] at hk1
    rw [div_add_one (by positivity), lt_div_iff₀ (by positivity)] at hk2
    have hN : |nrm v - k * 2 * Real.pi| ≤ Real.pi := by rw [abs_le]; constructor <;> linarith
    have hu := unit_normalized hn0
    have hw : nrm ((nrm v - k * 2 * Real.pi) • ((1 / nrm v) • v)) ≤ Real.pi := by
      rw [nrm_smul, nrm_eq_one.2 hu, mul_one]; exact hN
    refine ⟨(nrm v - k * 2 * Real.pi) • ((1 / nrm v) • v), ?_, ?_, by linarith, fun _ => hw⟩
    · unfold regulateOrientationVector
      rw [if_pos h]
      show (if k < 2 ^ 32 then _ else _) = _
      rw [if_pos hk3]; rfl
    · rw [hat_smul, ← toMat_eq_exp hu, ← toMat_normalized hn0, AngleAxis.toMat_rodrigues, AngleAxis.toMat_rodrigues]
      simp only
      rw [show (k : ℝ) * 2 * Real.pi = k * (2 * Real.pi) by ring, Real.cos_sub_nat_mul_two_pi, Real.sin_sub_nat_mul_two_pi]
  · refine ⟨v, ?_, rfl, ?_, fun h => absurd rfl h⟩
    · unfold regulateOrientationVector; rw [if_neg h]
    · rw [nrm]; exact Real.sqrt_le_iff.2 ⟨by positivity, not_lt.1 h⟩

/-- **C42** In terms of the library's own rotation matrix: it is unchanged, except possibly when the regulated vector falls below
the threshold `1e-16` (and is not zero). -/
theorem C42_matrix (v w : V3) (hw : regulateOrientationVector v = .ok w) (hv : nrm v ≤ Real.pi * (2 ^ 33 - 1))
    (h : 1e-16 < nrm w ∨ w = 0) : rotationVectorToRotationMatrix w = rotationVectorToRotationMatrix v := by
  obtain ⟨w', e, h1, _, _⟩ := C42_partial v hv
  rw [hw] at e
  obtain rfl : w = w' := by cases e; rfl
  by_cases hwv : w = v
  · rw [hwv]
  have hbig : 1e-16 < nrm v := by
    by_contra hc
    apply hwv
    have hc := not_lt.1 hc
    have : ¬v ⬝ᵥ v > (3 / 2 * Real.pi) ^ 2 := by
      rw [← nrm_sq]
      have := Real.two_le_pi
      have := nrm_nonneg v
      intro hh
      have h3 : nrm v < 3 / 2 * Real.pi := by
        have : (1e-16 : ℝ) ≤ 1 := by norm_num
        linarith
      nlinarith
    unfold regulateOrientationVector at hw
    rw [if_neg this] at hw
    cases hw; rfl
  rw [rv_exp hbig, ← h1]
  rcases h with h | h
  · rw [rv_exp h]
  · subst h
    rw [rv_below (by rw [nrm_zero]; exact epsilonAngle_pos.le), hat_zero]; simp

/-- **C42** Beyond the range of `unsigned` the call is undefined behaviour. -/
theorem C42_false (v : V3) (hv : Real.pi * (2 ^ 33 - 1) < nrm v) : regulateOrientationVector v = .ub := by
  have hpi := Real.pi_pos
  have hn : 3 / 2 * Real.pi < nrm v := by
    have : (3 / 2 : ℝ) ≤ 2 ^ 33 - 1 := by norm_num
    nlinarith
  have h : v ⬝ᵥ v > (3 / 2 * Real.pi) ^ 2 := by rw [← nrm_sq]; exact pow_lt_pow_left₀ hn (by positivity) two_ne_zero
  unfold regulateOrientationVector
  rw [if_pos h]
  have hk : ¬⌈(nrm v - Real.pi) / (2 * Real.pi)⌉₊ < 2 ^ 32 := by
    rw [not_lt]
    by_contra hc
    have hc : ⌈(nrm v - Real.pi) / (2 * Real.pi)⌉₊ ≤ 2 ^ 32 - 1 := by omega
    rw [Nat.ceil_le, div_le_iff₀ (by positivity)] at hc
    push_cast at hc
    norm_num at hc
    nlinarith
  exact if_neg hk

theorem C42_negation : ¬C42_statement := by
  intro h
  have hpi := Real.pi_pos
  obtain ⟨w, hw, _⟩ := h ((Real.pi * 2 ^ 33) • ex)
  rw [C42_false] at hw
  · cases hw
  · rw [nrm_smul, nrm_eq_one.2 (by simp), mul_one, abs_of_pos (by positivity)]
    nlinarith

end StateObs.Kine
