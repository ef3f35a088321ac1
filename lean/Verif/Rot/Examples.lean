import Verif.Rot.YawProps
import Verif.Rot.FDProps
import Verif.Kin.MotionExists
import Verif.Elastic.MeasProps
/-! # The hypotheses of C39, C40, C43, C44, C75 and C91 are met

Concrete cases for the theorems of `Rot/YawProps`, `Rot/MotionProps`, `Rot/FDProps` and for the motions of `Elastic/MeasProps`. -/

namespace StateObs.Kine
open StateObs Matrix Rot

theorem nrm_ex : nrm ex = 1 := nrm_eq_one.2 (by simp)

/-- C39_tilt: a tilt of 90 degrees around the first axis, merged with the yaw of the identity. -/
example : (![0, -1, 0] : V3) ⬝ᵥ ![0, -1, 0] = 1 ∧ IsRot (1 : M3) ∧ ex ⬝ᵥ ex = 1 ∧ ex 2 = 0 ∧ 1e-16 < nrm (((1 : M3)ᵀ *ᵥ ex) ⨯₃ ![0, -1, 0]) := by
  refine ⟨by simp [dot3], ⟨by simp, by simp⟩, by simp, by simp, ?_⟩
  have : ((1 : M3)ᵀ *ᵥ ex) ⨯₃ ![0, -1, 0] = -ez := by
    rw [transpose_one, one_mulVec]
    apply ext3 <;> simp [cross0, cross1, cross2]
  rw [this, nrm_neg, nrm_eq_one.2 ez_unit]
  norm_num

/-- C39_agnostic: the same tilt. -/
example : epsilon1 < |((1 : M3) *ᵥ ![0, -1, 0]) 1| := by
  rw [one_mulVec]
  norm_num [epsilon1]

/-- C43_vector6: a turn of one radian. -/
example : 1e-16 < nrm ex ∧ nrm ex < Real.pi := by
  rw [nrm_ex]
  exact ⟨by norm_num, by linarith [Real.two_le_pi]⟩

/-- C43_state_derivatives: a translation with a constant acceleration and a constant orientation, whatever they are. -/
example (v a θ : V3) : ∃ s : ℝ → St18, (∀ t, (s t).ori = θ ∧ (s t).linVel = v + t • a) ∧ ∀ t, HasDerivAt (fun t => (s t).pos) (s t).linVel t ∧
    HasDerivAt (fun t => (s t).linVel) (s t).linAcc t ∧
    (∀ w, HasDerivAt (fun t => rotationVectorToRotationMatrix (s t).ori *ᵥ w) ((s t).angVel ⨯₃ (rotationVectorToRotationMatrix (s t).ori *ᵥ w)) t) ∧
    HasDerivAt (fun t => (s t).angVel) (s t).angAcc t := by
  have hlin : ∀ (c : V3) (t : ℝ), HasDerivAt (fun t : ℝ => t • c) c t := by
    intro c t
    have := (hasDerivAt_id t).smul_const c
    simpa using this
  have hsq : ∀ t : ℝ, HasDerivAt (fun t : ℝ => t * t / 2) t t := by
    intro t
    convert! ((hasDerivAt_id t).mul (hasDerivAt_id t)).div_const 2 using 1
    simp only [id]; ring
  refine ⟨fun t => { pos := t • v + (t * t / 2) • a, ori := θ, linVel := v + t • a, angVel := 0, linAcc := a, angAcc := 0 }, fun t => ⟨rfl, rfl⟩, fun t => ⟨?_, ?_, ?_, ?_⟩⟩
  · exact (hlin v t).add ((hsq t).smul_const a)
  · convert! (hasDerivAt_const t v).add (hlin a t) using 1
    rw [zero_add]
  · intro w
    rw [show (0 : V3) ⨯₃ (rotationVectorToRotationMatrix θ *ᵥ w) = 0 by rw [map_zero, LinearMap.zero_apply]]
    exact hasDerivAt_const t (rotationVectorToRotationMatrix θ *ᵥ w)
  · exact hasDerivAt_const _ _

/-- C75_integrate: a half turn around the vertical axis. -/
example : (⟨0, 0, 0, 1⟩ : Quat).normSq = 1 ∧ 1e-16 < 1 * nrm (derivateRotationFD 1 ⟨0, 0, 0, 1⟩ 1) := by
  refine ⟨by simp [Quat.normSq], ?_⟩
  have hq : (⟨0, 0, 0, 1⟩ : Quat) * (1 : Quat).conj = ⟨0, 0, 0, 1⟩ := by
    show (⟨0, 0, 0, 1⟩ : Quat) * Quat.conj Quat.one = _
    rw [show Quat.conj Quat.one = (1 : Quat) by ext <;> simp [Quat.conj, Quat.one], Quat.mul_one]
  have hv : (⟨0, 0, 0, 1⟩ : Quat).vec = ez := by apply ext3 <;> simp [Quat.vec]
  have hn : nrm ez = 1 := nrm_eq_one.2 ez_unit
  have ha : atan2 1 0 = Real.pi / 2 := by
    have := AngleAxis.atan2_polar (r := 1) (θ := Real.pi / 2) one_pos ⟨by linarith [Real.pi_pos], by linarith [Real.pi_pos]⟩
    simpa using this
  have e : derivateRotationFD 1 ⟨0, 0, 0, 1⟩ 1 = Real.pi • ez := by
    rw [derivateRotationFD, hq, AngleAxis.ofQuat, hv, hn]
    simp [ha, mul_div_cancel₀]
  rw [e, nrm_smul, hn, abs_of_pos Real.pi_pos]
  linarith [Real.two_le_pi]

/-- C44_motion: every rotation, angular velocity and angular acceleration. -/
example (R : M3) (hR : IsRot R) (w b : V3) : ∃ (Q : ℝ → M3) (ω α : ℝ → V3), Turns Q ω ∧ Deriv ω α ∧ Q 0 = R ∧ ω 0 = w ∧ α 0 = b := by
  obtain ⟨m, -, h2, -, h4, -, h6⟩ := motion_exists 0 0 w 0 b hR
  exact ⟨m.R, m.ω, m.α, m.turns, m.dω, h2, h4, h6⟩

end StateObs.Kine

namespace StateObs.Elastic
open StateObs Matrix Rot Kine Imu
open StateObs.KO (Robot at3)

/-- C91_imu: for every state, every input and all the accelerations there are such motions. -/
example (x u : DVec) (a α : V3) : ∃ (m n : Motion) (V : ℝ → V3) (A W : V3), Moves x m 0 ∧ m.a 0 = a ∧ m.α 0 = α ∧ Mounted u n 0 ∧
    Deriv (fun t => m.p t + m.R t *ᵥ n.p t) V ∧ HasDerivAt V A 0 ∧ TurnsAt (fun t => m.R t * n.R t) W 0 := by
  obtain ⟨m, h1, h2, h3, h4, h5, h6⟩ := motion_exists (at3 x 0) (at3 x 6) (at3 x 9) a α (rv_isRot (at3 x 3))
  obtain ⟨n, k1, k2, k3, k4, k5, -⟩ := motion_exists (at3 u 27) (at3 u 33) (at3 u 36) (at3 u 39) 0 (rv_isRot (at3 u 30))
  exact ⟨m, n, _, _, _, ⟨h1, h2, h3, h4⟩, h5, h6, ⟨k1, k2, k3, k4, k5⟩, fun t => (m.dp t).add (m.turns.mulVec (n.dp t)),
    (m.dv 0).add ((hasDerivAt_cross (m.dω 0) (m.turns.mulVec (n.dp 0))).add (m.turns.mulVec (n.dv 0))),
    TurnsAt.mul (fun w => m.turns 0 w) (fun w => n.turns 0 w) (m.rot 0)⟩

end StateObs.Elastic
