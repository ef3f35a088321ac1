import Verif.Kin.IntProps
import Verif.Imu.MltpLemmas
/-! # Every kinematics is that of some motion -/

namespace StateObs.Kine
open StateObs Matrix Rot

/-- For every position, rotation, velocities and accelerations there is a moving frame that has them at the instant zero. The hypotheses on motions are thus never empty. -/
theorem motion_exists (p v ω a α : V3) {R : M3} (hR : IsRot R) :
    ∃ m : Motion, m.p 0 = p ∧ m.R 0 = R ∧ m.v 0 = v ∧ m.ω 0 = ω ∧ m.a 0 = a ∧ m.α 0 = α := by
  have h1 : Turns (fun t => NormedSpace.exp (hat (t • ω)) * 1) (fun _ => (1 : ℝ) • ω) := Kin.turns_axis ω 1 (fun t => t) (fun _ => 1) (fun t => hasDerivAt_id t)
  simp only [mul_one, one_smul] at h1
  have h2 : Turns (fun t => NormedSpace.exp (hat ((t * t / 2) • α)) * R) (fun t => t • α) := by
    refine Kin.turns_axis α R (fun t => t * t / 2) (fun t => t) fun t => ?_
    convert! ((hasDerivAt_id t).mul (hasDerivAt_id t)).div_const 2 using 1
    simp only [id]; ring
  have hlin : ∀ (c : V3) (t : ℝ), HasDerivAt (fun t : ℝ => t • c) c t := by
    intro c t
    have := (hasDerivAt_id t).smul_const c
    simpa using this
  refine ⟨{ R := fun t => NormedSpace.exp (hat (t • ω)) * (NormedSpace.exp (hat ((t * t / 2) • α)) * R)
            ω := fun t => ω + NormedSpace.exp (hat (t • ω)) *ᵥ (t • α)
            α := fun t => ω ⨯₃ (NormedSpace.exp (hat (t • ω)) *ᵥ (t • α)) + NormedSpace.exp (hat (t • ω)) *ᵥ α
            p := fun t => p + t • v + (t * t / 2) • a
            v := fun t => v + t • a
            a := fun _ => a
            rot := fun t => (exp_isRot _).mul ((exp_isRot _).mul hR)
            turns := fun t => TurnsAt.mul (fun w => h1 t w) (fun w => h2 t w) (exp_isRot _)
            dω := fun t => by
              convert! (hasDerivAt_const t ω).add (h1.mulVec (hlin α t)) using 1
              rw [zero_add]
            dp := fun t => by
              have : HasDerivAt (fun t : ℝ => t * t / 2) t t := by
                convert! ((hasDerivAt_id t).mul (hasDerivAt_id t)).div_const 2 using 1
                simp only [id]; ring
              convert! ((hasDerivAt_const t p).add (hlin v t)).add (this.smul_const a) using 1
              rw [zero_add]
            dv := fun t => by
              convert! (hasDerivAt_const t v).add (hlin a t) using 1
              rw [zero_add] }, ?_, ?_, ?_, ?_, ?_, ?_⟩
  all_goals simp [hat_zero]

end StateObs.Kine
