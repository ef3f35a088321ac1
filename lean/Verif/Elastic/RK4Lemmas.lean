import Verif.Elastic.RK4Model
import Verif.Elastic.RK4Spec
import Verif.Elastic.NewtonProps
/-! # Helper lemmas: the method of Runge and Kutta -/

namespace StateObs.Elastic
open StateObs Matrix Rot Kine Imu

variable {G : Type}

theorem wrench_list {R : M3} {p f t : V3} {fc tc : Fin 2 → V3} {cs : List ContactIn} {w : V3 × V3} (h : wrenchLoop R p fc tc cs 0 f t = .ok w) :
    cs.length ≤ 2 ∧ w = (f + (cs[0]?.elim 0 (fun c => R *ᵥ (rotationVectorToRotationMatrix c.ori *ᵥ fc 0)) +
        cs[1]?.elim 0 (fun c => R *ᵥ (rotationVectorToRotationMatrix c.ori *ᵥ fc 1))),
      t + (cs[0]?.elim 0 (fun c => R *ᵥ (rotationVectorToRotationMatrix c.ori *ᵥ tc 0) + (p + R *ᵥ c.pos) ⨯₃ (R *ᵥ (rotationVectorToRotationMatrix c.ori *ᵥ fc 0))) +
        cs[1]?.elim 0 (fun c => R *ᵥ (rotationVectorToRotationMatrix c.ori *ᵥ tc 1) + (p + R *ᵥ c.pos) ⨯₃ (R *ᵥ (rotationVectorToRotationMatrix c.ori *ᵥ fc 1))))) := by
  match cs, h with
  | [], h => cases h; simp
  | [c], h =>
    simp only [wrenchLoop, show (0 : ℕ) < 2 by norm_num, dif_pos] at h
    cases h
    refine ⟨by simp, ?_⟩
    simp [rotationVectorToRotationMatrix, add_comm p]
  | [c, d], h =>
    simp only [wrenchLoop, show (0 : ℕ) < 2 by norm_num, show (0 + 1 : ℕ) < 2 by norm_num, dif_pos] at h
    cases h
    refine ⟨by simp, ?_⟩
    simp [rotationVectorToRotationMatrix, add_comm p, add_assoc]
  | c :: d :: e :: cs, h =>
    simp only [wrenchLoop, show (0 : ℕ) < 2 by norm_num, show (0 + 1 : ℕ) < 2 by norm_num, show ¬ (0 + 1 + 1 : ℕ) < 2 by norm_num, dif_pos, dif_neg, not_false_eq_true] at h
    cases h

/-- The accelerations obey the equations of Newton and Euler. -/
theorem accel_newton {s : Sys G} (hm : s.massInv = 1 / s.mass) {i : Input} (hi : i.inertiaᵀ = i.inertia) {R : M3} {p v ω fm tm a α : V3}
    (h : s.accel i R p ω fm tm = .ok (a, α)) : Loaded.NewtonEuler ⟨s.mass, s.model, i, s.fc, s.tc, fm, tm⟩ ⟨p, R, v, ω⟩ a α := by
  unfold Sys.accel at h
  simp only [Res.bind_eq_ok] at h
  obtain ⟨⟨f, t⟩, hw, h⟩ := h
  rw [hm] at h
  obtain ⟨h0, h1, h2⟩ := accelerations_ok hi h
  have hF : f = Loaded.force ⟨s.mass, s.model, i, s.fc, s.tc, fm, tm⟩ ⟨p, R, v, ω⟩ ∧ t = Loaded.moment ⟨s.mass, s.model, i, s.fc, s.tc, fm, tm⟩ ⟨p, R, v, ω⟩ := by
    unfold contactWrench at hw
    simp only at hw
    unfold Loaded.force Loaded.moment
    simp only
    split_ifs at hw ⊢ with hmod
    · obtain ⟨-, hw⟩ := wrench_list hw
      cases hw
      constructor
      · simp only [Loaded.contactForce, Fin.val_zero, Fin.val_one]
        abel
      · simp only [Loaded.contactForce, Loaded.contactMoment, Fin.val_zero, Fin.val_one]
        cases i.contacts[0]? <;> cases i.contacts[1]? <;> simp only [Option.elim_none, Option.elim_some] <;> abel
    · cases hw
      constructor <;> abel
  obtain ⟨rfl, rfl⟩ := hF
  have hf : s.mass • Loaded.comAcc ⟨s.mass, s.model, i, s.fc, s.tc, fm, tm⟩ ⟨p, R, v, ω⟩ a α =
      Loaded.force ⟨s.mass, s.model, i, s.fc, s.tc, fm, tm⟩ ⟨p, R, v, ω⟩ - s.mass • gravityUp := by
    unfold Loaded.comAcc
    simp only
    rw [h1, smul_sub, smul_smul, mul_one_div_cancel h0, one_smul]
    rfl
  refine ⟨hf, ?_⟩
  unfold Loaded.momentumRate
  rw [hf]
  exact h2

/-- What a step of the method of Runge and Kutta computes. -/
theorem iterateRK4_ok {s : Sys G} (hi : Inv s) {i : Input} (hI : i.inertiaᵀ = i.inertia) {fc tc fc' tc' : Fin 2 → V3} {p θ v ω fm tm p' θ' v' ω' : V3} {dt : ℝ}
    (h : s.iterateRK4 i fc tc p θ v ω fm tm dt = .ok ((p', θ', v', ω'), fc', tc')) :
    ∃ R', IsRot R' ∧ θ' = rotationMatrixToRotationVector R' ∧
      RungeKutta (Loaded.NewtonEuler ⟨s.mass, s.model, i, fc, tc, fm, tm⟩) (Loaded.NewtonEuler ⟨s.mass, s.model, i, fc, tc, fm, tm⟩)
        (Loaded.NewtonEuler ⟨s.mass, s.model, i, tc, fc, fm, tm⟩) (Loaded.NewtonEuler ⟨s.mass, s.model, i, fc, tc, fm, tm⟩) dt
        ⟨p, rotationVectorToRotationMatrix θ, v, ω⟩ ⟨p', R', v', ω'⟩ ∧
      s.forcesPure i.contacts p' v' θ' (rotationVectorToRotationMatrix θ') ω' = .ok (fc', tc') := by
  unfold Sys.iterateRK4 at h
  simp only at h
  obtain ⟨rt, e, hr⟩ := rotation_eq (s := { s with fc := fc, tc := tc }) hi.rot θ 0
  rw [e] at h
  simp only [Res.bind_eq_ok] at h
  obtain ⟨⟨a1, α1⟩, h1, ⟨a2, α2⟩, h2, ⟨a3, α3⟩, h3, ⟨a4, α4⟩, h4, h⟩ := h
  simp only at h
  set R := rotationVectorToRotationMatrix θ with hR
  have n1 := accel_newton (s := { s with fc := fc, tc := tc, rot := rt }) hi.mass hI (v := v) h1
  have n2 := accel_newton (s := { s with fc := fc, tc := tc, rot := rt }) hi.mass hI (v := v + (dt / 2) • a1) h2
  have n3 := accel_newton (s := { s with fc := tc, tc := fc, rot := rt }) hi.mass hI (v := v + (dt / 2) • a2) h3
  have n4 := accel_newton (s := { s with fc := fc, tc := tc, rot := rt }) hi.mass hI (v := v + dt • a3) h4
  obtain ⟨sf, hf, h⟩ := h
  simp only [Res.ok.injEq, Prod.mk.injEq] at h
  obtain ⟨⟨rfl, rfl, rfl, rfl⟩, rfl, rfl⟩ := h
  have hrot : IsRot R := rv_isRot θ
  refine ⟨_, ?_, rfl, ⟨a1, α1, a2, α2, a3, α3, a4, α4, _, _, _, n1, rfl, n2, rfl, n3, rfl, n4, ?_, rfl, rfl, rfl⟩, ?_⟩
  · unfold integrateMat
    exact (rv_isRot _).mul ((rv_isRot _).mul ((rv_isRot _).mul ((rv_isRot _).mul hrot)))
  · simp only [integratePos, Body.move]
    module
  · revert hf
    generalize ((AngleAxis.ofMat _).angle • (AngleAxis.ofMat _).axis : V3) = θ'
    intro hf
    obtain ⟨rt', e', hr'⟩ := rotation_eq (s := { s with fc := fc, tc := tc, rot := rt }) hr θ' 0
    simp only [e'] at hf
    obtain ⟨rt2, -, e2⟩ := forces_eq (s := { s with fc := fc, tc := tc, rot := rt' }) hr' i.contacts
      (integratePos (integratePos (integratePos (integratePos p v (dt / 6)) (v + (dt / 2) • a1) (dt / 3)) (v + (dt / 2) • a2) (dt / 3)) (v + dt • a3) (dt / 6))
      (v + (dt / 6) • (a1 + (2 : ℝ) • a2 + (2 : ℝ) • a3 + a4)) θ' (rotationVectorToRotationMatrix θ') (ω + (dt / 6) • (α1 + (2 : ℝ) • α2 + (2 : ℝ) • α3 + α4))
    erw [e2] at hf
    obtain ⟨w, hw, hf⟩ := Res.bind_eq_ok.1 hf
    cases hf
    rw [← hw]
    exact (forcesPure_congr (by constructor <;> rfl) _ _ _ _ _ _).symm

/-- The forces of the elastic contacts. -/
theorem elastic_list {s : Sys G} {p v θ ω : V3} {R : M3} {cs : List ContactIn} {w : (Fin 2 → V3) × (Fin 2 → V3)} (h : elasticPure s p v θ R ω cs 0 0 0 = .ok w) (k : Fin 2) :
    (w.1 k, w.2 k) = (cs[k.1]?).elim (0, 0) fun c => s.contactForce c (rotationVectorToRotationMatrix c.ori) p v θ R ω := by
  match cs, h with
  | [], h => cases h; rfl
  | [c], h =>
    simp only [elasticPure, show (0 : ℕ) < 2 by norm_num, dif_pos] at h
    cases h
    fin_cases k <;> simp
  | [c, d], h =>
    simp only [elasticPure, show (0 : ℕ) < 2 by norm_num, show (0 + 1 : ℕ) < 2 by norm_num, dif_pos] at h
    cases h
    fin_cases k <;> simp
  | c :: d :: e :: cs, h =>
    simp only [elasticPure, show (0 : ℕ) < 2 by norm_num, show (0 + 1 : ℕ) < 2 by norm_num, show ¬ (0 + 1 + 1 : ℕ) < 2 by norm_num, dif_pos, dif_neg, not_false_eq_true] at h
    cases h

theorem elastic_live {s : Sys G} {p v θ ω : V3} {R : M3} {cs : List ContactIn} (h : cs.length ≤ 2) : ∃ w, elasticPure s p v θ R ω cs 0 0 0 = .ok w := by
  match cs, h with
  | [], _ => exact ⟨_, rfl⟩
  | [c], _ => exact ⟨_, rfl⟩
  | [c, d], _ => exact ⟨_, rfl⟩

end StateObs.Elastic
