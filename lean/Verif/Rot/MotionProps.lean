import Verif.Rot.Motion
import Verif.Rot.Props
/-!
# Properties C43, C44: homogeneous matrices, inversion of states, rotation about a fixed point
-/

namespace StateObs.Kine
open StateObs Matrix Rot

theorem homo_R (R : M3) (t : V3) : (homo R t).submatrix ![0, 1, 2] ![0, 1, 2] = R := by
  apply mext3; intro i j; fin_cases i <;> fin_cases j <;> rfl
theorem homo_t (R : M3) (t : V3) : (fun i => homo R t (![0, 1, 2] i) 3) = t := by
  apply ext3 <;> rfl
theorem homo_mul (R S : M3) (t u : V3) : homo R t * homo S u = homo (R * S) (R *ᵥ u + t) := by
  ext i j
  fin_cases i <;> fin_cases j <;> simp [homo, mul_apply, Fin.sum_univ_four, Fin.sum_univ_three, mulVec3]
theorem homo_one : homo 1 0 = 1 := by
  ext i j; fin_cases i <;> fin_cases j <;> simp [homo]

/-- **C43** `invertHomoMatrix` inverts rigid transforms, and is an involution. -/
theorem C43_homogeneous (R : M3) (t : V3) (hR : IsRot R) :
    invertHomoMatrix (homo R t) * homo R t = 1 ∧ homo R t * invertHomoMatrix (homo R t) = 1 ∧
    invertHomoMatrix (homo R t) = (homo R t)⁻¹ ∧ invertHomoMatrix (invertHomoMatrix (homo R t)) = homo R t := by
  have e : ∀ (R : M3) t, invertHomoMatrix (homo R t) = homo Rᵀ (-(Rᵀ *ᵥ t)) := by
    intro R t
    simp only [invertHomoMatrix, homo_R, homo_t]
  have h1 : invertHomoMatrix (homo R t) * homo R t = 1 := by
    rw [e, homo_mul, hR.orth]; simp [homo_one]
  refine ⟨h1, mul_eq_one_comm.1 h1, (inv_eq_left_inv h1).symm, ?_⟩
  rw [e, e, transpose_transpose, mulVec_neg, neg_neg, hR.cancel']

/-- **C43** From a pose vector to the homogeneous matrix and back. -/
theorem C43_vector6 (p θ : V3) (h0 : 1e-16 < nrm θ) (h1 : nrm θ < Real.pi) :
    homogeneousMatrixToVector6 (vector6ToHomogeneousMatrix p θ) = (p, θ) := by
  rw [vector6ToHomogeneousMatrix, homogeneousMatrixToVector6, homo_R, homo_t]
  have := C35_vector_matrix θ h0 h1
  rw [rotationMatrixToRotationVector, rotationVectorToRotationMatrix] at this
  simp only [this]

/-- **C43** From a rigid transform to the pose vector and back. -/
theorem C43_vector6_back (R : M3) (t : V3) (hR : IsRot R) (h0 : 1e-16 < nrm (homogeneousMatrixToVector6 (homo R t)).2) :
    vector6ToHomogeneousMatrix (homogeneousMatrixToVector6 (homo R t)).1 (homogeneousMatrixToVector6 (homo R t)).2 = homo R t := by
  have e : homogeneousMatrixToVector6 (homo R t) = (t, rotationMatrixToRotationVector R) := by
    rw [homogeneousMatrixToVector6, homo_R, homo_t]; rfl
  rw [e] at h0 ⊢
  have := (C35_matrix R hR).2.2 h0
  rw [rotationVectorToRotationMatrix] at this
  rw [vector6ToHomogeneousMatrix, this]

theorem skew_hat (v : V3) : skewSymmetric v = hat v := (hat_eq v).symm

/-- **C43** `invertState` is an involution. -/
theorem C43_state_involution (s : St18) : invertState (invertState s) = s := by
  have hR := rv_isRot s.ori
  have hr2 : (rotationVectorToAngleAxis (-s.ori)).toMat = (rotationVectorToRotationMatrix s.ori)ᵀ := rv_neg s.ori
  have hr1 : (rotationVectorToAngleAxis (- -s.ori)).toMat = rotationVectorToRotationMatrix s.ori := by rw [neg_neg]; rfl
  set R := rotationVectorToRotationMatrix s.ori
  simp only [invertState, hr2, hr1, skew_hat, hat_mulVec]
  have hc : ∀ a b, (Rᵀ *ᵥ a) ⨯₃ (Rᵀ *ᵥ b) = Rᵀ *ᵥ (a ⨯₃ b) := fun a b => (hR.transpose.cross a b).symm
  ext1
  · simp only [mulVec_neg, neg_neg, hR.cancel']
  · simp only [neg_neg]
  · simp only [cross_neg, Rot.neg_cross, neg_neg, hc, mulVec_sub, hR.cancel', sub_sub_cancel]
  · simp only [mulVec_neg, neg_neg, hR.cancel']
  · simp only [cross_neg, Rot.neg_cross, neg_neg, hc, ← mulVec_sub, ← mulVec_add, ← mulVec_neg, ← mulVec_smul, hR.cancel']
    simp only [cross_sub, cross_smul, sub_cross, _root_.cross_self, zero_sub, Rot.neg_cross]
    module
  · simp only [_root_.cross_self, cross_neg, Rot.neg_cross, neg_neg, zero_sub, mulVec_neg, hR.cancel', neg_zero]

/-- **C43** The state composed with its inverse is the identity pose. -/
theorem C43_state_pose (s : St18) :
    vector6ToHomogeneousMatrix s.pos s.ori * vector6ToHomogeneousMatrix (invertState s).pos (invertState s).ori = 1 := by
  have hR := rv_isRot s.ori
  have hr2 : (rotationVectorToAngleAxis (-s.ori)).toMat = (rotationVectorToRotationMatrix s.ori)ᵀ := rv_neg s.ori
  simp only [vector6ToHomogeneousMatrix, invertState, hr2]
  show homo (rotationVectorToRotationMatrix s.ori) _ * _ = 1
  rw [homo_mul, hR.orth', mulVec_neg, hR.cancel']
  simp [homo_one]

/-- The derivative of `Rᵀ x` at one time (`Turns.transpose_mulVec` at one time). -/
theorem transpose_mulVec_at {R : ℝ → M3} {ω : V3} {t : ℝ} (h : ∀ w, HasDerivAt (fun t => R t *ᵥ w) (ω ⨯₃ (R t *ᵥ w)) t) {x : ℝ → V3} {x' : V3}
    (hx : HasDerivAt x x' t) : HasDerivAt (fun t => (R t)ᵀ *ᵥ x t) ((R t)ᵀ *ᵥ (x' - ω ⨯₃ x t)) t := by
  have hs : (fun t => (R t)ᵀ *ᵥ x t) = fun t => ![(R t *ᵥ ![1, 0, 0]) ⬝ᵥ x t, (R t *ᵥ ![0, 1, 0]) ⬝ᵥ x t, (R t *ᵥ ![0, 0, 1]) ⬝ᵥ x t] := by
    funext t; exact transpose_mulVec_eq _ _
  rw [hs, transpose_mulVec_eq, hasDerivAt3]
  refine ⟨?_, ?_, ?_⟩
  · convert! hasDerivAt_dot (h ![1, 0, 0]) hx using 1
    simp only [cons_val_zero, dotProduct_sub]; rw [cross_dot_left]; ring
  · convert! hasDerivAt_dot (h ![0, 1, 0]) hx using 1
    simp only [cons_val_one, cons_val_zero, dotProduct_sub]; rw [cross_dot_left]; ring
  · convert! hasDerivAt_dot (h ![0, 0, 1]) hx using 1
    simp only [cons_val, dotProduct_sub]; rw [cross_dot_left]; ring

/-- **C43** Velocities and accelerations are inverted as well: if at a time `t` a state follows a trajectory (its velocities are the derivatives of its pose and
its accelerations those of its velocities), the inverted state follows the inverse trajectory at `t`. -/
theorem C43_state_derivatives (s : ℝ → St18) (t : ℝ) (hp : HasDerivAt (fun t => (s t).pos) (s t).linVel t)
    (hv : HasDerivAt (fun t => (s t).linVel) (s t).linAcc t)
    (hR : ∀ w, HasDerivAt (fun t => rotationVectorToRotationMatrix (s t).ori *ᵥ w) ((s t).angVel ⨯₃ (rotationVectorToRotationMatrix (s t).ori *ᵥ w)) t)
    (hω : HasDerivAt (fun t => (s t).angVel) (s t).angAcc t) :
    HasDerivAt (fun t => (invertState (s t)).pos) (invertState (s t)).linVel t ∧
    HasDerivAt (fun t => (invertState (s t)).linVel) (invertState (s t)).linAcc t ∧
    (∀ w, HasDerivAt (fun t => rotationVectorToRotationMatrix (invertState (s t)).ori *ᵥ w)
      ((invertState (s t)).angVel ⨯₃ (rotationVectorToRotationMatrix (invertState (s t)).ori *ᵥ w)) t) ∧
    HasDerivAt (fun t => (invertState (s t)).angVel) (invertState (s t)).angAcc t := by
  have hr2 : ∀ t, (rotationVectorToAngleAxis (-(s t).ori)).toMat = (rotationVectorToRotationMatrix (s t).ori)ᵀ := fun t => rv_neg _
  have hr3 : ∀ t, rotationVectorToRotationMatrix (-(s t).ori) = (rotationVectorToRotationMatrix (s t).ori)ᵀ := fun t => rv_neg _
  have hrot : ∀ t, IsRot (rotationVectorToRotationMatrix (s t).ori) := fun t => rv_isRot _
  simp only [invertState, hr2, hr3, skew_hat, hat_mulVec]
  refine ⟨?_, ?_, fun w => ?_, ?_⟩
  · have := (transpose_mulVec_at hR hp).neg
    convert! this using 1
    rw [← mulVec_neg, neg_sub]
  · have := transpose_mulVec_at hR ((hasDerivAt_cross hω hp).sub hv)
    convert! this using 1
    show _ = _ *ᵥ ((s t).angAcc ⨯₃ (s t).pos + (s t).angVel ⨯₃ (s t).linVel - (s t).linAcc -
      (s t).angVel ⨯₃ ((s t).angVel ⨯₃ (s t).pos - (s t).linVel))
    refine congrArg (fun z => _ *ᵥ z) ?_
    simp only [cross_sub, cross_smul]
    module
  · have := transpose_mulVec_at hR (hasDerivAt_const t w)
    convert! this using 1
    rw [Rot.neg_cross, ← (hrot t).transpose.cross, zero_sub, mulVec_neg]
  · have := (transpose_mulVec_at hR hω).neg
    convert! this using 1
    rw [← mulVec_neg, neg_sub]

/-- **C44** The point stays where it is. -/
theorem C44_position (R : M3) (ω α c : V3) : R *ᵥ c + (fixedPointRotationToTranslation R ω α c).1 = c := by
  simp [fixedPointRotationToTranslation]

/-- **C44** Along any motion, the returned velocity is the derivative of the returned translation, and the returned acceleration
that of the returned velocity; hence the velocity and acceleration of the image of the point vanish. -/
theorem C44_motion (R : ℝ → M3) (ω α : ℝ → V3) (c : V3) (hR : Turns R ω) (hω : Deriv ω α) :
    Deriv (fun t => (fixedPointRotationToTranslation (R t) (ω t) (α t) c).1)
      (fun t => (fixedPointRotationToTranslation (R t) (ω t) (α t) c).2.1) ∧
    Deriv (fun t => (fixedPointRotationToTranslation (R t) (ω t) (α t) c).2.1)
      (fun t => (fixedPointRotationToTranslation (R t) (ω t) (α t) c).2.2) := by
  constructor
  · intro t
    exact (hR t c).const_sub c
  · intro t
    have := (hasDerivAt_cross (hω t) (hR t c)).neg
    convert! this using 1
    simp only [fixedPointRotationToTranslation]
    abel

/-- **C44** Velocity and acceleration of the image of the fixed point, in terms of the motion of the body: zero. -/
theorem C44_stationary (R : M3) (ω α c : V3) :
    let o := fixedPointRotationToTranslation R ω α c
    ω ⨯₃ (R *ᵥ c) + o.2.1 = 0 ∧ α ⨯₃ (R *ᵥ c) + ω ⨯₃ (ω ⨯₃ (R *ᵥ c)) + o.2.2 = 0 := by
  simp only [fixedPointRotationToTranslation]
  exact ⟨by abel, by abel⟩

end StateObs.Kine
