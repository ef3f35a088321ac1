import Verif.KO.HelperModel
import Verif.Kin.ProdProps
/-!
# Property C135: the functions of the kinetics observer for derived classes
-/

namespace StateObs.KO
open StateObs Matrix Rot Kine KF
open Observer

/-- A contact on a robot: the robot is at `p`, `R` with velocities `v`, `w`; in its frame the contact is at `l`, `S` with velocities `lv`, `lw`; the spring is at rest when the contact is at
`r`, `Q`. -/
structure Situation where
  p : V3
  R : M3
  v : V3
  w : V3
  l : V3
  S : M3
  lv : V3
  lw : V3
  r : V3
  Q : M3
  visco : Visco

/-- The objects given to the function are in this situation. Accelerations may be set or not. -/
structure Situation.Is (s : Situation) (c : Contact) (k pose : Kin) : Prop where
  visco : c.visco = some s.visco
  state : ∃ a b, k.Has ⟨some s.p, some s.R, some s.v, some s.w, a, b⟩
  contact : ∃ a b, c.localKine.Has ⟨some s.l, some s.S, some s.lv, some s.lw, a, b⟩
  rest : ∃ x y a b, pose.Has ⟨some s.r, some s.Q, x, y, a, b⟩

/-- The force of the spring and of the damper on the contact, in the frame of the contact. -/
def Situation.force (s : Situation) : V3 :=
  (s.R * s.S)ᵀ *ᵥ (s.visco.linStiff *ᵥ (s.r - (s.p + s.R *ᵥ s.l)) - s.visco.linDamp *ᵥ (s.v + s.w ⨯₃ (s.R *ᵥ s.l) + s.R *ᵥ s.lv))

/-- `t` is the torque of the angular spring and damper on the contact, in the frame of the contact: the vector part of a quaternion of the rotation from the orientation at rest to the orientation of the
contact is half of the rotation vector for small rotations. -/
def Situation.IsTorque (s : Situation) (t : V3) : Prop := ∃ q : Quat, q.normSq = 1 ∧ q.toMat = s.R * s.S * s.Qᵀ ∧
  t = (s.R * s.S)ᵀ *ᵥ (-((0.5 : ℝ) • (s.visco.angStiff *ᵥ ![q.x, q.y, q.z])) - s.visco.angDamp *ᵥ (s.w + s.R *ᵥ s.lw))

/-- The full claim for the wrench: the two variables of the caller get the wrench. -/
def C135_wrench_statement : Prop := ∀ (s : Situation) (c : Contact) (k pose : Kin) (a : WrenchVars), s.Is c k pose →
  ∃ z, computeContactForces c k pose a = .ok z ∧ z.1.force = s.force ∧ s.IsTorque z.1.torque

/-- The full claim for the part of a measurement vector: the `size` numbers of the sensor, which begin at `i`. -/
def C135_extract_statement : Prop := ∀ (size i : ℕ) (v : DVec), i + size ≤ v.size →
  ∃ w, extractFromVector size (some i) v = .ok w ∧ w.size = size ∧ ∀ j (h : j < w.size) (h' : i + j < v.size), w.val ⟨j, h⟩ = v.val ⟨i + j, h'⟩

/-- **C135** In every situation the call returns, the force is that of the spring and of the damper, the torque of the caller is not changed, and the kinematics of the caller keep their values. -/
theorem C135_wrench_partial (s : Situation) (c : Contact) (k pose : Kin) (a : WrenchVars) (h : s.Is c k pose) :
    ∃ k' pose', computeContactForces c k pose a = .ok (⟨s.force, a.torque⟩, k', pose') ∧ s.Is c k' pose' := by
  obtain ⟨hv, ⟨a1, b1, hk⟩, ⟨a2, b2, hl⟩, ⟨x, y, a3, b3, hp⟩⟩ := h
  obtain ⟨g, k', l', e, hg, hk', -⟩ := Kin.product_spec (k := Kin.new) hk hl rfl (Or.inl rfl)
  have ho : g.ori.Rep (s.R * s.S) := hg.ori
  obtain ⟨o', eo, ho'⟩ := ho.toMatrix3
  obtain ⟨q, o'', eq, -, -, -⟩ := ho'.toQuaternion
  obtain ⟨q', o3, eq', hq', -, -⟩ := Ori.Rep.toQuaternion (o := pose.ori) (R := s.Q) hp.ori
  have r1 : pose.pos.read dbg = .ok s.r := Item.read hp.pos
  have r2 : g.pos.read dbg = .ok (s.R *ᵥ s.l + s.p) := Item.read hg.pos
  have r3 : g.linVel.read dbg = .ok (s.w ⨯₃ (s.R *ᵥ s.l) + s.R *ᵥ s.lv + s.v) := Item.read hg.linVel
  have r4 : g.angVel.read dbg = .ok (s.R *ᵥ s.lw + s.w) := Item.read hg.angVel
  refine ⟨k', { pose with ori := o3 }, ?_, hv, ⟨a1, b1, hk'⟩, ⟨a2, b2, hl⟩, ⟨x, y, a3, b3, hp.pos, hq', hp.linVel, hp.angVel, hp.linAcc, hp.angAcc⟩⟩
  have e' : Kin.product k c.localKine = .ok (g, k', l') := e
  simp only [computeContactForces, hv, rd, Res.ok_bind, e', eo, r1, r2, r3, eq, eq', r4]
  have e1 : s.R *ᵥ s.l + s.p = s.p + s.R *ᵥ s.l := add_comm _ _
  have e2 : s.w ⨯₃ (s.R *ᵥ s.l) + s.R *ᵥ s.lv + s.v = s.v + s.w ⨯₃ (s.R *ᵥ s.l) + s.R *ᵥ s.lv := by abel
  rw [e1, e2]
  rfl

/-- **C135** The function returns `measIndex` numbers that begin at `size`: this is the part of the sensor if both are equal. -/
theorem C135_extract_partial (size i : ℕ) (v : DVec) : (size + i ≤ v.size → ∃ w, extractFromVector size (some i) v = .ok w ∧ w.size = i ∧
      (∀ j (h : j < w.size) (h' : size + j < v.size), w.val ⟨j, h⟩ = v.val ⟨size + j, h'⟩) ∧
      (i = size → w.size = size ∧ ∀ j (h : j < w.size) (h' : i + j < v.size), w.val ⟨j, h⟩ = v.val ⟨i + j, h'⟩)) ∧
    (v.size < size + i → extractFromVector size (some i) v = .assertFail) ∧ extractFromVector size none v = .ub := by
  refine ⟨fun h => ⟨_, by simp only [extractFromVector, rd, Res.ok_bind]; rw [dif_pos h], rfl, fun _ _ _ => rfl, ?_⟩, fun h => ?_, rfl⟩
  · rintro rfl
    exact ⟨rfl, fun _ _ _ => rfl⟩
  · simp only [extractFromVector, rd, Res.ok_bind]
    rw [dif_neg (by omega)]

/-- **C135** is false for the sensors: what is returned for the first sensor (whose part begins at zero) is always empty. -/
theorem C135_extract_false : ¬ C135_extract_statement := by
  intro h
  obtain ⟨w, e, hw, -⟩ := h 6 0 (DVec.zero 6) (by simp [DVec.zero])
  have : extractFromVector 6 (some 0) (DVec.zero 6) = .ok ⟨0, fun j => j.elim0⟩ := by
    simp only [extractFromVector, rd, Res.ok_bind]
    rw [dif_pos (by simp [DVec.zero])]
    congr 2
    funext j
    exact j.elim0
  rw [this] at e
  cases e
  cases hw

/-- Non-vacuity: a robot at the origin that turns with unit speed about the vertical, with a contact at one meter. -/
def spinning : Situation := ⟨0, 1, 0, ![0, 0, 1], ![1, 0, 0], 1, 0, 0, ![1, 0, 0], 1, ⟨1, 1, 1, 1⟩⟩

/-- The objects of this situation. -/
noncomputable def spinningKin (p w : V3) : Kin := ⟨⟨true, some p⟩, (Ori.new true).assignQuat 1, ⟨true, some 0⟩, ⟨true, some w⟩, CItem.new true, CItem.new true⟩

theorem spinning_has (p w : V3) : (spinningKin p w).Has ⟨some p, some 1, some 0, some w, none, none⟩ :=
  ⟨rfl, Ori.rep_q Quat.normSq_one Quat.toMat_one, rfl, rfl, rfl, rfl⟩

theorem spinning_is : spinning.Is { Contact.new with visco := some ⟨1, 1, 1, 1⟩, localKine := spinningKin ![1, 0, 0] 0 } (spinningKin 0 ![0, 0, 1]) (spinningKin ![1, 0, 0] 0) :=
  ⟨rfl, ⟨_, _, spinning_has _ _⟩, ⟨_, _, spinning_has _ _⟩, ⟨_, _, _, _, spinning_has _ _⟩⟩

/-- **C135** is false for the wrench: the torque is not returned. -/
theorem C135_wrench_false : ¬ C135_wrench_statement := by
  intro h
  obtain ⟨z, e, -, q, hq, hm, ht⟩ := h spinning _ _ _ ⟨0, 0⟩ spinning_is
  obtain ⟨k', pose', e', -⟩ := C135_wrench_partial spinning _ _ _ ⟨0, 0⟩ spinning_is
  rw [e] at e'
  cases e'
  have hm' : q.toMat = (1 : Quat).toMat := by rw [hm, Quat.toMat_one]; simp [spinning]
  have hv : ![q.x, q.y, q.z] = (0 : V3) := by
    rcases Quat.toMat_inj hq Quat.normSq_one hm' with rfl | rfl <;> apply ext3 <;> simp [Quat.scale]
  rw [hv] at ht
  have h2 := congrFun ht 2
  simp [spinning] at h2

end StateObs.KO
