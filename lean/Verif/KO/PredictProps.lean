import Verif.KO.Predict
import Verif.KO.ClientProps
import Verif.KO.StateProps
/-!
# C106: the state that the dynamics of the kinetics observer predict
-/

namespace StateObs.KO
open StateObs Matrix Rot Kine KF
open Observer

variable {nc ni : ℕ} {o o' : Observer} {c : Client} {x x' : DVec}

/-! ## Lemmas -/

theorem run_coherent {c c' : Client} {l : List Op} (h : Client.Run nc ni c l c') : ∀ op ∈ l, op.Coherent := by
  induction h with
  | nil => simp
  | cons hs _ ih =>
    intro op hop
    rcases List.mem_cons.1 hop with rfl | hop
    · cases hs
      case keeps => cases ‹Client.Keeps _ _ _ _› <;> exact trivial
      all_goals first | exact trivial | exact ⟨_, ‹Kin.Has _ _›⟩
    · exact ih op hop

theorem stateVector_good (h : Client.StateVector nc ni x) : GoodState nc ni x := by
  obtain ⟨f, rfl, h1⟩ := h
  refine ⟨rfl, ?_⟩
  have e : ∀ i, i < 19 → at1 ⟨19 + ni * 3 + nc * 13, fun i => f i⟩ i = f i := fun i hi => by rw [at1, dif_pos (by simp only; omega)]
  simp only [UnitAt]
  rw [e _ (by omega), e _ (by omega), e _ (by omega), e _ (by omega)]
  exact h1

theorem Predicts.ready (h : Predicts nc ni c o) : Inv nc ni o ∧ Ready nc ni o ∧ Sim nc ni c o := by
  obtain ⟨⟨o0, l, h1, h2, h3⟩, h4, h5⟩ := h
  obtain ⟨o', e, hs⟩ := (Sim.new h1).run h2
  obtain rfl := Res.ok.inj (e.symm.trans h3)
  exact ⟨hs.fed.inv, hs.ready h4 h5, hs⟩

/-! ## Properties -/

/-- **C106** For every state vector with a unit quaternion, the dynamics return, and the orientation they give is a unit quaternion. -/
theorem C106_returns (h : Predicts nc ni c o) (hx : Client.StateVector nc ni x) :
    ∃ x', o.stateDynamics x = .ok x' ∧ x'.size = 19 + ni * 3 + nc * 13 ∧ (stateOri x').normSq = 1 := by
  obtain ⟨hi, hr, -⟩ := h.ready
  have hg := stateVector_good hx
  obtain ⟨W, a, α, k', x', -, -, e, hs, hn, -⟩ := stateDynamics_value hi hr hg
  exact ⟨x', e, by rw [hs, hg.size], hn⟩

/-- **C106** The predicted kinematics are the ones of the robot, with the accelerations that `estimateAccelerations()` gives for them, after one sampling time. -/
theorem C106_kinematics (h : Predicts nc ni c o) (hx : Client.StateVector nc ni o.getCurrentStateVector) (he : o.estimateAccelerations = .ok o') {p v w a α : V3} {R : M3}
    (hk : o'.getKinematics.Has ⟨some p, some R, some v, some w, some a, some α⟩) (e : o.stateDynamics o.getCurrentStateVector = .ok x') :
    statePos x' = p + c.dt • v + (c.dt ^ 2 / 2) • a ∧ stateLinVel x' = v + c.dt • a ∧
    (stateOri x').toMat = vecRot (c.dt • w + (c.dt ^ 2 / 2) • α) * R ∧ stateAngVel x' = w + c.dt • α := by
  obtain ⟨hi, hr, hsim⟩ := h.ready
  have hg : GoodState nc ni o.x := stateVector_good hx
  obtain ⟨⟨o0, l, h1, h2, h3⟩, -, -⟩ := h
  have hs := shows_reachable ⟨o0, h1, h3⟩ (run_coherent h2)
  have hu : (stateOri o.x).normSq = 1 := by
    have := hg.quat
    simp only [UnitAt] at this
    show Quat.normSq ⟨at1 o.x 6, at1 o.x 3, at1 o.x 4, at1 o.x 5⟩ = 1
    simp only [Quat.normSq]
    linarith
  obtain ⟨W, a', α', k', x2, ew, ec, e2, -, -, f1, f2, f3, f4, -⟩ := stateDynamics_value hi hr hg
  obtain rfl := Res.ok.inj (e2.symm.trans e)
  simp only [estimateAccelerations, ew, Res.ok_bind, Res.bind_eq_ok] at he
  obtain ⟨⟨a2, α2, k2⟩, ec2, he⟩ := he
  cases he
  have s0 := loaded_has Kin.new (x := o.x) hg.quat rfl rfl
  have hacc := hsim.acc
  obtain ⟨⟨xa, ha⟩, ⟨xb, hb⟩⟩ := hacc
  have sk : o.stateKin.Has ⟨some (at3 o.x 0), some (stateOri o.x).toMat, some (at3 o.x 7), some (at3 o.x 10), xa, xb⟩ :=
    ⟨hs.pos, hs.ori.rep hu, hs.linVel, hs.angVel, ha, hb⟩
  obtain ⟨b1, g1, g2, g3, g4, g5⟩ := computeAccelerations_ok s0 ec
  obtain ⟨b2, g6, -, -, g7, g8⟩ := computeAccelerations_ok sk ec2
  obtain rfl := Res.ok.inj (g1.symm.trans g6)
  have eα : α2 = α' := by rw [g4, g7]; rfl
  subst eα
  have ea : a2 = a' := by rw [g5, g8]; rfl
  subst ea
  obtain ⟨b3, hb3, hm3, hd3⟩ := hr.body
  obtain ⟨a3, α3, k3, ec3, hk3⟩ := computeAccelerations_live (F := W.1) (M := W.2) sk hb3 hm3 hd3
  rw [ec2] at ec3
  cases ec3
  have : (⟨some p, some R, some v, some w, some a, some α⟩ : Value) = ⟨some (at3 o.x 0), some (stateOri o.x).toMat, some (at3 o.x 7), some (at3 o.x 10), some a2, some α2⟩ :=
    hk.inj ⟨hk3.pos, hk3.ori, hk3.linVel, hk3.angVel, rfl, rfl⟩
  simp only [Value.mk.injEq, Option.some.injEq] at this
  obtain ⟨rfl, rfl, rfl, rfl, rfl, rfl⟩ := this
  rw [← hsim.dt, pow_two]
  refine ⟨?_, f2, f3, f4⟩
  rw [add_assoc]
  exact f1

/-- **C106** The prediction keeps the biases, the wrench that is not modeled, and the poses of the contacts. -/
theorem C106_kept (h : Predicts nc ni c o) (hx : Client.StateVector nc ni x) (e : o.stateDynamics x = .ok x') :
    (∀ i < ni, stateBias i x' = stateBias i x) ∧ stateForce ni x' = stateForce ni x ∧ stateTorque ni x' = stateTorque ni x ∧
    ∀ n, contactPos ni n x' = contactPos ni n x ∧ contactOri ni n x' = contactOri ni n x := by
  obtain ⟨hi, hr, -⟩ := h.ready
  obtain ⟨W, a', α', k', x2, ew, ec, e2, -, -, f1, f2, f3, f4, kp, -⟩ := stateDynamics_value hi hr (stateVector_good hx)
  obtain rfl := Res.ok.inj (e2.symm.trans e)
  have low : ∀ j, 13 ≤ j → j < 19 + 3 * ni → at1 x2 j = at1 x j := fun j h1 h2 => kp j h1 fun n _ => by left; omega
  have con : ∀ n i, i < 7 → at1 x2 (19 + 3 * ni + 13 * n + i) = at1 x (19 + 3 * ni + 13 * n + i) := fun n i h1 => kp _ (by omega) fun m _ => by
    rcases Nat.lt_trichotomy m n with hm | rfl | hm <;> omega
  refine ⟨fun i hi => at3_same fun j a b => low j (by omega) (by omega), at3_same fun j a b => low j (by omega) (by omega), at3_same fun j a b => low j (by omega) (by omega),
    fun n => ⟨at3_same fun j a b => ?_, ?_⟩⟩
  · obtain ⟨i, rfl⟩ : ∃ i, j = 19 + 3 * ni + 13 * n + i := ⟨j - (19 + 3 * ni + 13 * n), by omega⟩
    exact con n i (by omega)
  · show (⟨at1 x2 _, at1 x2 _, at1 x2 _, at1 x2 _⟩ : Quat) = ⟨at1 x _, at1 x _, at1 x _, at1 x _⟩
    rw [con n 3 (by omega), con n 4 (by omega), con n 5 (by omega), con n 6 (by omega)]

/-- **C106**, what is computed: the predicted wrench of a contact is the one of a spring and a damper between the frame of the robot and the origin of the world, expressed in
the frame of the contact. The position and the velocities of the contact in the robot, and its rest pose, have no effect on it. -/
theorem C106_computed_partial (h : Predicts nc ni c o) (hx : Client.StateVector nc ni x) (e : o.stateDynamics x = .ok x') {n : ℕ} {vi : Visco} {l : Placed}
    (hc : ContactIs o n vi l) :
    SpringForce vi ⟨statePos x', (stateOri x').toMat * l.R, stateLinVel x', stateAngVel x'⟩ 0 (contactForce ni n x') ∧
    SpringTorque vi ⟨statePos x', (stateOri x').toMat * l.R, stateLinVel x', stateAngVel x'⟩ l.R (contactTorque ni n x') := by
  obtain ⟨hi, hr, -⟩ := h.ready
  obtain ⟨W, a', α', k', x2, ew, ec, e2, -, -, f1, f2, f3, f4, -, wr, -⟩ := stateDynamics_value hi hr (stateVector_good hx)
  obtain rfl := Res.ok.inj (e2.symm.trans e)
  obtain ⟨k, y, z, h1, h2, h3, h4⟩ := hc
  obtain ⟨g1, q, g2, g3, -, -, g4⟩ := wr n k h1 h2 vi _ _ _ _ y z h3 h4
  refine ⟨?_, q, g2, ?_, g4⟩
  · simp only [SpringForce, _root_.sub_zero]
    exact g1
  · have : l.R * l.Rᵀ = 1 := mul_eq_one_comm.1 h4.rot.1
    rw [g3, mul_assoc, this, mul_one]

/-- **C106** The predicted force is the expected one exactly when the forces of the spring and of the damper that are forgotten cancel out. -/
theorem C106_force_partial (h : Predicts nc ni c o) (hx : Client.StateVector nc ni x) (e : o.stateDynamics x = .ok x') {n : ℕ} {vi : Visco} {l : Placed}
    (hc : ContactIs o n vi l) :
    SpringForce vi ((robotOf x').comp l) (contactPos ni n x') (contactForce ni n x') ↔
      vi.linStiff *ᵥ ((stateOri x').toMat *ᵥ l.p - contactPos ni n x') +
        vi.linDamp *ᵥ (stateAngVel x' ⨯₃ ((stateOri x').toMat *ᵥ l.p) + (stateOri x').toMat *ᵥ l.v) = 0 := by
  obtain ⟨h1, -⟩ := C106_computed_partial h hx e hc
  obtain ⟨x2, e2, -, hn⟩ := C106_returns h hx
  obtain rfl := Res.ok.inj (e2.symm.trans e)
  obtain ⟨k, y, z, -, -, -, h4⟩ := hc
  have hR : IsRot ((stateOri x2).toMat * l.R) := (Quat.toMat_isRot hn).mul h4.rot
  simp only [SpringForce, Placed.comp, robotOf, _root_.sub_zero] at h1 ⊢
  have key : vi.linStiff *ᵥ (statePos x2 + (stateOri x2).toMat *ᵥ l.p - contactPos ni n x2) +
      vi.linDamp *ᵥ (stateLinVel x2 + stateAngVel x2 ⨯₃ ((stateOri x2).toMat *ᵥ l.p) + (stateOri x2).toMat *ᵥ l.v) =
      vi.linStiff *ᵥ statePos x2 + vi.linDamp *ᵥ stateLinVel x2 + (vi.linStiff *ᵥ ((stateOri x2).toMat *ᵥ l.p - contactPos ni n x2) +
        vi.linDamp *ᵥ (stateAngVel x2 ⨯₃ ((stateOri x2).toMat *ᵥ l.p) + (stateOri x2).toMat *ᵥ l.v)) := by
    simp only [mulVec_add, mulVec_sub]
    abel
  rw [h1, neg_inj, key]
  generalize vi.linStiff *ᵥ statePos x2 + vi.linDamp *ᵥ stateLinVel x2 = A
  generalize vi.linStiff *ᵥ ((stateOri x2).toMat *ᵥ l.p - contactPos ni n x2) +
    vi.linDamp *ᵥ (stateAngVel x2 ⨯₃ ((stateOri x2).toMat *ᵥ l.p) + (stateOri x2).toMat *ᵥ l.v) = B
  rw [mulVec_add, left_eq_add]
  constructor
  · intro hh
    rw [← hR.cancel' B, hh, mulVec_zero]
  · intro hh
    rw [hh, mulVec_zero]

/-- **C106** The predicted wrench is the expected one when the rest position is the one that the contact has in the robot, turned like the robot, the rest orientation is the
one that it has in the robot, and the motion of the robot moves the contact by translation only. -/
theorem C106_spring_partial (h : Predicts nc ni c o) (hx : Client.StateVector nc ni x) (e : o.stateDynamics x = .ok x') {n : ℕ} {vi : Visco} {l : Placed}
    (hc : ContactIs o n vi l) (hp : contactPos ni n x = (stateOri x').toMat *ᵥ l.p) (hR : (contactOri ni n x).toMat = l.R)
    (hv : stateAngVel x' ⨯₃ ((stateOri x').toMat *ᵥ l.p) + (stateOri x').toMat *ᵥ l.v = 0) (hw : l.w = 0) :
    SpringForce vi ((robotOf x').comp l) (contactPos ni n x') (contactForce ni n x') ∧
    SpringTorque vi ((robotOf x').comp l) (contactOri ni n x').toMat (contactTorque ni n x') := by
  obtain ⟨k1, k2⟩ := (C106_kept h hx e).2.2.2 n
  refine ⟨(C106_force_partial h hx e hc).2 ?_, ?_⟩
  · rw [k1, hp, sub_self, hv, mulVec_zero, mulVec_zero, add_zero]
  · obtain ⟨-, q, g1, g2, g3⟩ := C106_computed_partial h hx e hc
    refine ⟨q, g1, ?_, ?_⟩
    · rw [k2, hR]; exact g2
    · rw [g3]
      simp only [Placed.comp, robotOf, hw, mulVec_zero, add_zero]

end StateObs.KO
