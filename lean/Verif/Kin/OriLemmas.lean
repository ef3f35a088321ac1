import Verif.Kin.OriSpec
import Verif.Rot.Props
/-!
# Helper lemmas on `Orientation`
-/

namespace StateObs.Kine
open StateObs Matrix Rot

theorem vecRot_eq (v : V3) : rotationVectorToRotationMatrix v = vecRot v := C34_exp v

theorem Quat_inverse_toMat {q : Quat} (h : q.normSq = 1) : q.inverse.toMat = q.toMatᵀ := by
  rw [Quat.inverse_unit h, Quat.toMat_conj]

theorem Quat_inverse_unit {q : Quat} (h : q.normSq = 1) : q.inverse.normSq = 1 := by
  rw [Quat.inverse_unit h, Quat.normSq_conj, h]

namespace Ori

/-- The object represents the rotation `R`. -/
structure Rep (o : Ori) (R : M3) : Prop where
  rot : IsRot R
  set : o.q.flag = true ∨ o.m.flag = true
  quat : o.q.flag = true → ∃ q, o.q.v = some q ∧ q.normSq = 1 ∧ q.toMat = R
  mat : o.m.flag = true → o.m.v = some R

/-- The object represents the given rotation, or is not set. -/
def Holds (o : Ori) : Option M3 → Prop
  | none => o.q.flag = false ∧ o.m.flag = false
  | some R => Rep o R

theorem Rep.cases {o : Ori} {R : M3} (h : Rep o R) :
    (∃ q mv, o = ⟨⟨true, some q⟩, ⟨false, mv⟩⟩ ∧ q.normSq = 1 ∧ q.toMat = R ∧ IsRot R) ∨
    (∃ qv, o = ⟨⟨false, qv⟩, ⟨true, some R⟩⟩ ∧ IsRot R) ∨
    (∃ q, o = ⟨⟨true, some q⟩, ⟨true, some R⟩⟩ ∧ q.normSq = 1 ∧ q.toMat = R ∧ IsRot R) := by
  obtain ⟨hr, hs, hq, hm⟩ := h
  obtain ⟨⟨qf, qv⟩, ⟨mf, mv⟩⟩ := o
  cases qf <;> cases mf <;> simp at hs hq hm
  · right; left; exact ⟨qv, by rw [hm], hr⟩
  · left
    obtain ⟨q, rfl, h1, h2⟩ := hq
    exact ⟨q, mv, rfl, h1, h2, hr⟩
  · right; right
    obtain ⟨q, rfl, h1, h2⟩ := hq
    exact ⟨q, by rw [hm], h1, h2, hr⟩

theorem rep_q {q : Quat} {mv : Option M3} {R : M3} (h : q.normSq = 1) (e : q.toMat = R) : Rep ⟨⟨true, some q⟩, ⟨false, mv⟩⟩ R :=
  ⟨e ▸ Quat.toMat_isRot h, by simp, fun _ => ⟨q, rfl, h, e⟩, by simp⟩

theorem rep_m {qv : Option Quat} {R : M3} (h : IsRot R) : Rep ⟨⟨false, qv⟩, ⟨true, some R⟩⟩ R :=
  ⟨h, by simp, by simp, by simp⟩

theorem rep_qm {q : Quat} {R : M3} (h : q.normSq = 1) (e : q.toMat = R) : Rep ⟨⟨true, some q⟩, ⟨true, some R⟩⟩ R :=
  ⟨e ▸ Quat.toMat_isRot h, by simp, fun _ => ⟨q, rfl, h, e⟩, by simp⟩

/-- Unfolds the functions on concrete objects. -/
macro "osimp" : tactic => `(tactic| simp [check, isQuaternionSet, isMatrixSet, CItem.isSet, dbg, CheckCfg.doCheck, CItem.read, CItem.assign, CItem.reset,
  CItem.ofValue, CItem.new, quaternionToMatrix, matrixToQuaternion, fillMatrix, fillQuaternion, Res.assert, productMatrix, ofBoth, ofMat, ofQuat])

theorem Rep.fillMatrix {o : Ori} {R : M3} (h : Rep o R) : ∃ o', o.fillMatrix = .ok o' ∧ Rep o' R ∧ o'.m = ⟨true, some R⟩ := by
  rcases h.cases with ⟨q, mv, rfl, h1, h2, h3⟩ | ⟨qv, rfl, h3⟩ | ⟨q, rfl, h1, h2, h3⟩
  · refine ⟨⟨⟨true, some q⟩, ⟨true, some R⟩⟩, by osimp; exact h2, rep_qm h1 h2, rfl⟩
  · exact ⟨_, by osimp, h, rfl⟩
  · exact ⟨_, by osimp, h, rfl⟩

theorem Rep.fillQuaternion {o : Ori} {R : M3} (h : Rep o R) : ∃ o' q, o.fillQuaternion = .ok o' ∧ Rep o' R ∧ o'.q = ⟨true, some q⟩ ∧ q.normSq = 1 ∧
    q.toMat = R := by
  rcases h.cases with ⟨q, mv, rfl, h1, h2, h3⟩ | ⟨qv, rfl, h3⟩ | ⟨q, rfl, h1, h2, h3⟩
  · exact ⟨_, q, by osimp, h, rfl, h1, h2⟩
  · have := Quat.ofMat_spec h3
    exact ⟨⟨⟨true, some (Quat.ofMat R)⟩, ⟨true, some R⟩⟩, Quat.ofMat R, by osimp, rep_qm this.1 this.2, rfl, this.1, this.2⟩
  · exact ⟨_, q, by osimp, h, rfl, h1, h2⟩

theorem Rep.check {o : Ori} {R : M3} (h : Rep o R) : o.check = .ok () := by
  rcases h.cases with ⟨q, mv, rfl, h1, h2, h3⟩ | ⟨qv, rfl, h3⟩ | ⟨q, rfl, h1, h2, h3⟩ <;> osimp

theorem read_true {α : Type} (x : α) : CItem.read dbg ⟨true, some x⟩ = .ok x := by simp [CItem.read, dbg, CItem.isSet, CheckCfg.doCheck]

theorem Rep.toMatrix3 {o : Ori} {R : M3} (h : Rep o R) : ∃ o', o.toMatrix3 = .ok (R, o') ∧ Rep o' R := by
  obtain ⟨o', e, r, hm⟩ := h.fillMatrix
  refine ⟨o', ?_, r⟩
  simp [Ori.toMatrix3, h.check, e, hm, read_true]

theorem Rep.toQuaternion {o : Ori} {R : M3} (h : Rep o R) : ∃ q o', o.toQuaternion = .ok (q, o') ∧ Rep o' R ∧ q.normSq = 1 ∧ q.toMat = R := by
  obtain ⟨o', q, e, r, hq, h1, h2⟩ := h.fillQuaternion
  refine ⟨q, o', ?_, r, h1, h2⟩
  simp [Ori.toQuaternion, h.check, e, hq, read_true]

theorem Rep.toVector4 {o : Ori} {R : M3} (h : Rep o R) : ∃ (q : Quat) (o' : Ori), o.toVector4 = .ok (![q.x, q.y, q.z, q.w], o') ∧ Rep o' R ∧ q.normSq = 1 ∧ q.toMat = R := by
  obtain ⟨q, o', e, r⟩ := h.toQuaternion
  exact ⟨q, o', by simp [Ori.toVector4, e], r⟩

theorem Rep.rotate {o : Ori} {R : M3} (h : Rep o R) (v : V3) : ∃ o', o.rotate v = .ok (R *ᵥ v, o') ∧ Rep o' R := by
  obtain ⟨o', e, r, hm⟩ := h.fillMatrix
  refine ⟨o', ?_, r⟩
  simp [Ori.rotate, h.check, e, hm, read_true]

theorem Rep.toRollPitchYaw {o : Ori} {R : M3} (h : Rep o R) : ∃ o', o.toRollPitchYaw = .ok (rotationMatrixToRollPitchYaw R, o') ∧ Rep o' R := by
  obtain ⟨o', e, r, hm⟩ := h.fillMatrix
  refine ⟨o', ?_, r⟩
  simp [Ori.toRollPitchYaw, h.check, e, hm, read_true]

theorem Rep.toRotationVector {o : Ori} {R : M3} (h : Rep o R) : ∃ v, o.toRotationVector = .ok v ∧ NormedSpace.exp (hat v) = R ∧ nrm v ≤ Real.pi := by
  rcases h.cases with ⟨q, mv, rfl, h1, h2, h3⟩ | ⟨qv, rfl, h3⟩ | ⟨q, rfl, h1, h2, h3⟩
  · exact ⟨quaternionToRotationVector q, by rw [Ori.toRotationVector]; osimp, h2 ▸ C35_log q h1⟩
  · have := C35_matrix R h3
    exact ⟨rotationMatrixToRotationVector R, by rw [Ori.toRotationVector]; osimp, this.1, this.2.1⟩
  · exact ⟨quaternionToRotationVector q, by rw [Ori.toRotationVector]; osimp, h2 ▸ C35_log q h1⟩

theorem Rep.toAngleAxis {o : Ori} {R : M3} (h : Rep o R) : ∃ a, o.toAngleAxis = .ok a ∧ NormedSpace.exp (hat (a.angle • a.axis)) = R ∧
    a.axis ⬝ᵥ a.axis = 1 ∧ 0 ≤ a.angle ∧ a.angle ≤ Real.pi := by
  rcases h.cases with ⟨q, mv, rfl, h1, h2, h3⟩ | ⟨qv, rfl, h3⟩ | ⟨q, rfl, h1, h2, h3⟩
  · refine ⟨AngleAxis.ofQuat q, by rw [Ori.toAngleAxis]; osimp, ?_, AngleAxis.ofQuat_axis_unit q, AngleAxis.ofQuat_angle_nonneg q,
      AngleAxis.ofQuat_angle_le q⟩
    rw [exp_ofAngleAxis _ (AngleAxis.ofQuat_axis_unit q), AngleAxis.toMat_ofQuat h1, h2]
  all_goals
    refine ⟨AngleAxis.ofMat R, by rw [Ori.toAngleAxis]; osimp, ?_, AngleAxis.ofQuat_axis_unit _, AngleAxis.ofQuat_angle_nonneg _,
      AngleAxis.ofQuat_angle_le _⟩
    rw [exp_ofAngleAxis (AngleAxis.ofMat R) (AngleAxis.ofQuat_axis_unit _), AngleAxis.toMat_ofMat h3]

theorem Rep.mul (o : Ori) {A B : Ori} {R S : M3} (hA : Rep A R) (hB : Rep B S) :
    ∃ o' A' B', o.setToProductNoAlias A B = .ok (o', A', B') ∧ Rep o' (R * S) ∧ Rep A' R ∧ Rep B' S ∧ (A = B → A' = A ∧ B' = B) := by
  have hRS := hA.rot.mul hB.rot
  rcases hA.cases with ⟨q, mv, rfl, h1, h2, h3⟩ | ⟨qv, rfl, h3⟩ | ⟨q, rfl, h1, h2, h3⟩ <;>
    rcases hB.cases with ⟨p, nv, rfl, k1, k2, k3⟩ | ⟨pv, rfl, k3⟩ | ⟨p, rfl, k1, k2, k3⟩
  · exact ⟨⟨⟨true, some (q * p)⟩, ⟨false, o.m.v⟩⟩, _, _, by rw [setToProductNoAlias]; osimp,
      rep_q (by rw [Quat.normSq_mul, h1, k1, one_mul]) (by rw [Quat.toMat_mul h1 k1, h2, k2]), hA, hB, fun _ => ⟨rfl, rfl⟩⟩
  · exact ⟨⟨⟨false, o.q.v⟩, ⟨true, some (q.toMat * S)⟩⟩, ⟨⟨true, some q⟩, ⟨true, some q.toMat⟩⟩, _, by rw [setToProductNoAlias]; osimp,
      h2 ▸ rep_m (h2 ▸ hRS), rep_qm h1 h2 |> fun h => by rw [← h2] at h ⊢; exact h, hB, fun e => by simp at e⟩
  · exact ⟨⟨⟨true, some (q * p)⟩, ⟨false, o.m.v⟩⟩, _, _, by rw [setToProductNoAlias]; osimp,
      rep_q (by rw [Quat.normSq_mul, h1, k1, one_mul]) (by rw [Quat.toMat_mul h1 k1, h2, k2]), hA, hB, fun _ => ⟨rfl, rfl⟩⟩
  · exact ⟨⟨⟨false, o.q.v⟩, ⟨true, some (R * p.toMat)⟩⟩, _, ⟨⟨true, some p⟩, ⟨true, some p.toMat⟩⟩, by rw [setToProductNoAlias]; osimp,
      k2 ▸ rep_m (k2 ▸ hRS), hA, rep_qm k1 k2 |> fun h => by rw [← k2] at h ⊢; exact h, fun e => by simp at e⟩
  · exact ⟨⟨⟨false, o.q.v⟩, ⟨true, some (R * S)⟩⟩, _, _, by rw [setToProductNoAlias]; osimp, rep_m hRS, hA, hB, fun _ => ⟨rfl, rfl⟩⟩
  · exact ⟨⟨⟨false, o.q.v⟩, ⟨true, some (R * S)⟩⟩, _, _, by rw [setToProductNoAlias]; osimp, rep_m hRS, hA, hB, fun _ => ⟨rfl, rfl⟩⟩
  · exact ⟨⟨⟨true, some (q * p)⟩, ⟨false, o.m.v⟩⟩, _, _, by rw [setToProductNoAlias]; osimp,
      rep_q (by rw [Quat.normSq_mul, h1, k1, one_mul]) (by rw [Quat.toMat_mul h1 k1, h2, k2]), hA, hB, fun _ => ⟨rfl, rfl⟩⟩
  · exact ⟨⟨⟨false, o.q.v⟩, ⟨true, some (R * S)⟩⟩, _, _, by rw [setToProductNoAlias]; osimp, rep_m hRS, hA, hB, fun _ => ⟨rfl, rfl⟩⟩
  · exact ⟨⟨⟨true, some (q * p)⟩, ⟨true, some (R * S)⟩⟩, _, _, by rw [setToProductNoAlias]; osimp,
      rep_qm (by rw [Quat.normSq_mul, h1, k1, one_mul]) (by rw [Quat.toMat_mul h1 k1, h2, k2]), hA, hB, fun _ => ⟨rfl, rfl⟩⟩

theorem Rep.inverse {o : Ori} {R : M3} (h : Rep o R) : ∃ o', o.inverse = .ok o' ∧ Rep o' Rᵀ := by
  rcases h.cases with ⟨q, mv, rfl, h1, h2, h3⟩ | ⟨qv, rfl, h3⟩ | ⟨q, rfl, h1, h2, h3⟩
  · exact ⟨⟨⟨true, some q.inverse⟩, ⟨false, none⟩⟩, by rw [Ori.inverse]; osimp,
      rep_q (Quat_inverse_unit h1) (by rw [Quat_inverse_toMat h1, h2])⟩
  · exact ⟨⟨⟨false, none⟩, ⟨true, some Rᵀ⟩⟩, by rw [Ori.inverse]; osimp, rep_m h3.transpose⟩
  · exact ⟨⟨⟨true, some q.inverse⟩, ⟨true, some Rᵀ⟩⟩, by rw [Ori.inverse]; osimp,
      rep_qm (Quat_inverse_unit h1) (by rw [Quat_inverse_toMat h1, h2])⟩

theorem Rep.integrate {o : Ori} {R : M3} (h : Rep o R) (v : V3) : ∃ o', o.integrate v = .ok o' ∧ Rep o' (vecRot v * R) := by
  have hv := rvq_unit v
  have hm := rvq_toMat v
  have hr := rv_isRot v
  rw [vecRot_eq] at hm hr
  rcases h.cases with ⟨q, mv, rfl, h1, h2, h3⟩ | ⟨qv, rfl, h3⟩ | ⟨q, rfl, h1, h2, h3⟩
  · exact ⟨⟨⟨true, some (rotationVectorToQuaternion v * q)⟩, ⟨false, mv⟩⟩, by rw [Ori.integrate]; osimp,
      rep_q (by rw [Quat.normSq_mul, hv, h1, one_mul]) (by rw [Quat.toMat_mul hv h1, hm, h2])⟩
  · exact ⟨⟨⟨false, qv⟩, ⟨true, some (vecRot v * R)⟩⟩, by rw [Ori.integrate, vecRot_eq]; osimp, rep_m (hr.mul h3)⟩
  · exact ⟨⟨⟨true, some (rotationVectorToQuaternion v * q)⟩, ⟨true, some (vecRot v * R)⟩⟩, by rw [Ori.integrate, ← hm]; osimp,
      rep_qm (by rw [Quat.normSq_mul, hv, h1, one_mul]) (by rw [Quat.toMat_mul hv h1, hm, h2])⟩

theorem Rep.synchronize {o : Ori} {R : M3} (h : Rep o R) : ∃ o', o.synchronize = .ok o' ∧ Rep o' R ∧ o'.isMatrixSet = true ∧ o'.isQuaternionSet = true := by
  rcases h.cases with ⟨q, mv, rfl, h1, h2, h3⟩ | ⟨qv, rfl, h3⟩ | ⟨q, rfl, h1, h2, h3⟩
  · exact ⟨⟨⟨true, some q⟩, ⟨true, some R⟩⟩, by rw [Ori.synchronize]; osimp; exact h2, rep_qm h1 h2, rfl, rfl⟩
  · have := Quat.ofMat_spec h3
    exact ⟨⟨⟨true, some (Quat.ofMat R)⟩, ⟨true, some R⟩⟩, by rw [Ori.synchronize]; osimp, rep_qm this.1 this.2, rfl, rfl⟩
  · exact ⟨⟨⟨true, some q⟩, ⟨true, some R⟩⟩, by rw [Ori.synchronize]; osimp, h, rfl, rfl⟩

theorem Rep.differentiate {o A : Ori} {R S : M3} (h : Rep o R) (hA : Rep A S) :
    ∃ v, o.differentiate A = .ok v ∧ NormedSpace.exp (hat v) * R = S ∧ nrm v ≤ Real.pi := by
  obtain ⟨i, e1, hi⟩ := h.inverse
  obtain ⟨p, A', i', e2, hp, _, _, _⟩ := Rep.mul (Ori.new false) hA hi
  obtain ⟨v, e3, h3, h4⟩ := hp.toRotationVector
  refine ⟨v, by simp [Ori.differentiate, h.check, e1, product, e2, e3], ?_, h4⟩
  rw [h3, mul_assoc, h.rot.orth, mul_one]

/-- Two objects that represent one rotation of angle strictly between 1e-16 and π have the same rotation vector. -/
theorem Rep.toRotationVector_vecRot {o : Ori} {v : V3} (h0 : 1e-16 < nrm v) (h1 : nrm v < Real.pi) (h : Rep o (vecRot v)) :
    o.toRotationVector = .ok v := by
  have hp := epsilonAngle_pos.trans h0
  have hwpos : 0 < (rotationVectorToQuaternion v).w := by
    rw [rotationVectorToQuaternion, aa_above h0]
    exact Real.cos_pos_of_mem_Ioo ⟨by simp only; linarith, by simp only; linarith⟩
  have key : ∀ q : Quat, q.normSq = 1 → q.toMat = vecRot v → quaternionToRotationVector q = v := by
    intro q hq e
    rw [← vecRot_eq, ← rvq_toMat] at e
    have h35 := C35_vector v h0 h1
    rcases Quat.toMat_inj hq (rvq_unit v) e with e | e
    · rw [e, h35]
    · rw [e]
      refine Eq.trans ?_ h35
      generalize rotationVectorToQuaternion v = q at *
      have hv : (Quat.scale (-1) q).vec = -q.vec := by apply ext3 <;> simp [Quat.scale, Quat.vec]
      have hw : (Quat.scale (-1) q).w = -q.w := by simp [Quat.scale]
      simp only [quaternionToRotationVector, AngleAxis.ofQuat, hv, hw, nrm_neg, abs_neg, neg_lt_zero, hwpos, if_true, not_lt.2 hwpos.le, if_false]
      split
      · simp only [smul_neg, one_div, inv_neg, neg_smul, neg_neg]
      · rfl
  rcases h.cases with ⟨q, mv, rfl, k1, h2, h3⟩ | ⟨qv, rfl, h3⟩ | ⟨q, rfl, k1, h2, h3⟩
  · rw [Ori.toRotationVector]; osimp; exact key q k1 h2
  · rw [Ori.toRotationVector]; osimp; rw [← vecRot_eq]; exact C35_vector_matrix v h0 h1
  · rw [Ori.toRotationVector]; osimp; exact key q k1 h2

/-! ## Objects without value -/

theorem unset_check {o : Ori} (h : Holds o none) : o.check = .assertFail := by
  obtain ⟨⟨qf, qv⟩, ⟨mf, mv⟩⟩ := o
  obtain ⟨rfl, rfl⟩ := h
  osimp

theorem holds_check {o : Ori} {R : Option M3} (h : Holds o R) : o.check = .ok () ∨ (o.check = .assertFail ∧ R = none) := by
  cases R with
  | none => exact .inr ⟨unset_check h, rfl⟩
  | some R => exact .inl (Rep.check h)

end Ori
end StateObs.Kine
