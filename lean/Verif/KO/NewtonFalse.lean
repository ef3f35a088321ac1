import Verif.KO.NewtonProps
import Verif.Kin.ProdProps
/-! # C61: where Newton's law holds, where it fails -/

namespace StateObs.KO
open StateObs Matrix Rot Kine KF
open Observer

/-- **C61**, Newton's second law, for the robots of which the frame does not turn, or turns about an axis through the centre of mass. Missing: the other
robots, for which `estimateAccelerations` is wrong (`C61_newton_defect`, `C61_false`). -/
theorem C61_newton_partial (o o' : Observer) (r : Robot) (t : ℝ) (F M : V3) (hd : Describes o r t) (hw : TotalWrench o F M)
    (h : o.estimateAccelerations = .ok o') (hm : r.Moves o' t) (V : ℝ → V3) (A : V3) (hV : Deriv r.com V) (hA : HasDerivAt V A t)
    (hax : r.frame.ω t ⨯₃ (r.frame.R t *ᵥ r.c t) = 0) :
    o.mass • (A + g) = r.frame.R t *ᵥ F := by
  rw [C61_newton_defect o o' r t F M hd hw h hm V A hV hA, hax]
  simp

/-! ## A robot that spins about the vertical axis -/

/-- The frame turns about the vertical axis, one radian per second, and has the constant acceleration `a`. -/
noncomputable def spin (a : V3) : Motion where
  R := Kin.fallingTop.R
  ω := Kin.fallingTop.ω
  α := Kin.fallingTop.α
  p := fun t => (t ^ 2 / 2) • a
  v := fun t => t • a
  a := fun _ => a
  rot := Kin.fallingTop.rot
  turns := Kin.fallingTop.turns
  dω := Kin.fallingTop.dω
  dp := by
    intro t
    have := (((hasDerivAt_id t).pow 2).div_const 2).smul_const a
    convert! this using 1
    simp
  dv := by
    intro t
    have := (hasDerivAt_id t).smul_const a
    convert! this using 1
    simp

noncomputable def spinRobot (a c : V3) : Robot where
  frame := spin a
  c := fun _ => c
  c' := 0
  c'' := 0
  σ := 0
  σ' := 0
  I := fun _ => 1
  I' := 0
  dc := fun _ => hasDerivAt_const _ _
  dc' := fun _ => hasDerivAt_const _ _
  dσ := fun _ => hasDerivAt_const _ _
  dI := by
    intro t w
    have := hasDerivAt_const t ((1 : M3) *ᵥ w)
    convert! this using 1
    simp

/-- The state vector: at the origin, unit quaternion, one radian per second about the vertical axis. -/
def spinState : DVec := ⟨22, fun i => if i.1 = 6 ∨ i.1 = 12 then 1 else 0⟩

theorem construct_kin (h : 0 < ni) : ∃ e k, Observer.construct nc ni = .ok { base nc ni with ekf := e, stateKin := k } ∧ k.linAcc = CItem.new true ∧
    k.angAcc = CItem.new true := by
  have hi := inv_base (nc := nc) h
  obtain ⟨o1, h1, c1⟩ := resetState_all hi
  have i1 := c1.inv hi
  obtain ⟨o2, h2, c2⟩ := resetProcess_all i1
  have i2 := c2.inv i1
  obtain ⟨_, P1, -, rfl, -⟩ := c1
  obtain ⟨_, P2, -, rfl, -⟩ := c2
  rw [construct_eq, h1, Res.ok_bind, h2, Res.ok_bind]
  have hx : Observer.kineIndex + 13 ≤ (base nc ni).x.size := by rw [hi.2.xSize]; simp [Observer.kineIndex]; omega
  simp only [Observer.updateKine, DVec.seg, hx, dif_pos, Res.ok_bind, Kin.fromVector, flagsStateKine, Kin.loadItem, Kin.loadOri, List.length_ofFn]
  exact ⟨_, _, rfl, rfl, rfl⟩

/-- The number of a vector at a position. -/
def at1 (x : DVec) (i : ℕ) : ℝ := if h : i < x.size then x.val ⟨i, h⟩ else 0

/-- The kinematics with the values of a state vector. -/
def loaded (k : Kin) (x : DVec) : Kin :=
  ⟨k.pos.assign (at3 x 0), k.ori.assignQuat ⟨at1 x 6, at1 x 3, at1 x 4, at1 x 5⟩, k.linVel.assign (at3 x 7), k.angVel.assign (at3 x 10), k.linAcc, k.angAcc⟩

theorem getD_ofFn {n : ℕ} (f : Fin n → ℝ) {i : ℕ} (hi : i < n) : (List.ofFn f).getD i 0 = f ⟨i, hi⟩ := by
  rw [List.getD_eq_getElem?_getD, List.getElem?_ofFn, dif_pos hi, Option.getD_some]

theorem fromVector_loaded (k : Kin) {x : DVec} {s : Fin 13 → ℝ} (h : x.seg 13 kineIndex = .ok s) :
    k.fromVector (List.ofFn s) flagsStateKine = .ok (loaded k x) := by
  unfold DVec.seg at h
  split_ifs at h with hx
  cases h
  simp only [kineIndex] at *
  have key : ∀ i < 13, (List.ofFn fun j : Fin 13 => x.val ⟨0 + j, by omega⟩).getD i 0 = at1 x i := by
    intro i hi
    rw [getD_ofFn _ hi, at1, dif_pos (by omega)]
    congr 1; simp
  have e3 : ∀ i, i + 2 < 13 → Kin.seg3 (List.ofFn fun j : Fin 13 => x.val ⟨0 + j, by omega⟩) i = at3 x i := by
    intro i hi
    rw [Kin.seg3, key _ (by omega), key _ (by omega), key _ (by omega)]
    apply ext3 <;> rfl
  have e4 : Kin.seg4 (List.ofFn fun j : Fin 13 => x.val ⟨0 + j, by omega⟩) 3 = ![at1 x 3, at1 x 4, at1 x 5, at1 x 6] := by
    rw [Kin.seg4, key _ (by omega), key _ (by omega), key _ (by omega), key _ (by omega)]
  simp only [Kin.fromVector, flagsStateKine, Kin.loadItem, Kin.loadOri, List.length_ofFn, if_true, Nat.reduceAdd, Nat.reduceLeDiff, Res.ok_bind, zero_add] at *
  rw [e3 0 (by omega), e3 7 (by omega), e3 10 (by omega), e4]
  rfl

theorem setStateVector_eq {o : Observer} (hi : Inv nc ni o) {v : DVec} (hv : v.size = 19 + ni * 3 + nc * 13) :
    ∃ e, o.setStateVector v false = .ok { o with x := v, ekf := e, stateKin := loaded o.stateKin v } := by
  obtain ⟨o2, h2⟩ := pushState_some hi hv o.stateKin
  obtain ⟨x, y, u, rfl⟩ := pushState_ok h2
  have h3 : pushState { o with x := v } = _ := h2
  obtain ⟨s, hs⟩ : ∃ s, v.seg 13 kineIndex = .ok s := ⟨_, by rw [DVec.seg, dif_pos (by rw [kineIndex]; omega)]⟩
  refine ⟨{ o.ekf with x := x, y := y, u := u }, ?_⟩
  rw [setStateVector, h3]
  simp only [Res.ok_bind, updateKine, hs, fromVector_loaded _ hs]
  rfl

theorem loaded_has (k : Kin) {x : DVec} (hq : at1 x 3 ^ 2 + at1 x 4 ^ 2 + at1 x 5 ^ 2 + at1 x 6 ^ 2 = 1) (ha : k.linAcc.flag = false) (hb : k.angAcc.flag = false) :
    (loaded k x).Has ⟨some (at3 x 0), some (Quat.toMat ⟨at1 x 6, at1 x 3, at1 x 4, at1 x 5⟩), some (at3 x 7), some (at3 x 10), none, none⟩ :=
  ⟨rfl, Ori.rep_q (by simp only [Quat.normSq]; linarith) rfl, rfl, rfl, ha, hb⟩

theorem spin_reachable (c : V3) : ∃ e k, Reachable 0 1 [.setCenterOfMass3 c 0 0, .setStateVector spinState false]
    { base 0 1 with com := some (c, 1), comd := some (0, 1), comdd := some (0, 1), kData := 1, x := spinState, ekf := e, stateKin := k } ∧
    k.Has ⟨some 0, some 1, some 0, some ![0, 0, 1], none, none⟩ := by
  obtain ⟨e, k, hc, ha, hb⟩ := construct_kin (nc := 0) (ni := 1) one_pos
  have h1 : Reachable 0 1 [.setCenterOfMass3 c 0 0] (Observer.setCenterOfMass3 { base 0 1 with ekf := e, stateKin := k } c 0 0) := ⟨_, hc, rfl⟩
  obtain ⟨e', h2⟩ := setStateVector_eq (inv_reachable h1) (v := spinState) rfl
  refine ⟨e', loaded k spinState, ⟨_, hc, ?_⟩, ?_⟩
  · show (setStateVector (Observer.setCenterOfMass3 { base 0 1 with ekf := e, stateKin := k } c 0 0) spinState false >>= Res.ok) = _
    rw [h2]
    rfl
  · have := loaded_has k (x := spinState) (by simp [at1, spinState]) (by rw [ha]; rfl) (by rw [hb]; rfl)
    convert! this using 2
    · congr 1; apply ext3 <;> simp [at3, spinState]
    · congr 1
      apply mext3; intro i j
      fin_cases i <;> fin_cases j <;> simp [at1, spinState, Quat.toMat]
    · congr 1; apply ext3 <;> simp [at3, spinState]
    · congr 1; apply ext3 <;> simp [at3, spinState]

/-- What the witness gives: an observer that has been told nothing but the centre of mass and the state, the robot it describes, no wrench. -/
theorem spin_witness (c : V3) (hc : (inertiaAtOrigin ⟨c, 0, 0, 0, 0, 1, 0⟩ 50).det ≠ 0) (hz : c ⨯₃ (![0, 0, 1] ⨯₃ (![0, 0, 1] ⨯₃ c)) = 0) :
    ∃ l o o' a, Reachable 0 1 l o ∧ Describes o (spinRobot a c) 0 ∧ TotalWrench o 0 0 ∧ o.estimateAccelerations = .ok o' ∧ (spinRobot a c).Moves o' 0 ∧
      o.mass = 50 := by
  obtain ⟨e, k, hr, hk⟩ := spin_reachable c
  have hR : Kin.fallingTop.R 0 = 1 := by
    apply mext3; intro i j
    fin_cases i <;> fin_cases j <;> simp [Kin.fallingTop]
  set o : Observer := { base 0 1 with com := some (c, 1), comd := some (0, 1), comdd := some (0, 1), kData := 1, x := spinState, ekf := e, stateKin := k } with ho
  have hw : TotalWrench o 0 0 := by
    refine ⟨[], .nil, ?_, ?_⟩ <;> apply ext3 <;> simp [o, base, Observer.init, at3, spinState]
  have hb : o.body = .ok ⟨c, 0, 0, 0, 0, 1, 0⟩ := rfl
  obtain ⟨w, ew⟩ : ∃ w, o.addUnmodeledAndContactWrench o.x (o.addForce, o.addTorque) = .ok w := by
    simp [addUnmodeledAndContactWrench, unmodeledTorqueIndex, unmodeledWrenchIndex, gyroBiasIndex, angVelIndex, linVelIndex, oriIndex, posIndex, DVec.seg, o, base,
      Observer.init, spinState, Res.assert]
  obtain rfl := wrench_eq hw ew
  obtain ⟨a, α, k', ec, hk'⟩ := computeAccelerations_live (o := o) (F := 0) (M := 0) hk hb (by norm_num [o, base, Observer.init]) hc
  have hα : α = 0 := by
    obtain ⟨b, hb', -, -, eα, -⟩ := computeAccelerations_ok hk ec
    rw [hb] at hb'
    cases hb'
    rw [eα]
    have : (1 : M3)ᵀ *ᵥ ![0, 0, 1] = ![0, 0, 1] := by simp
    rw [this]
    simp only [localAngAcc, corioCentri, zero_add, smul_add, add_zero, zero_mulVec, one_mulVec, cross_self, _root_.sub_zero, zero_sub, neg_cross, cross_neg,
      cross_smul, smul_cross, hz]
    simp [hz]
  have hd : ∀ a, Describes o (spinRobot a c) 0 := fun a =>
    ⟨⟨_, _, _, _, by convert! hk using 3⟩, ⟨_, rfl⟩, ⟨_, rfl⟩, ⟨_, rfl⟩, ⟨_, rfl⟩, ⟨_, rfl⟩, ⟨_, rfl⟩, ⟨_, rfl⟩⟩
  refine ⟨_, o, { o with stateKin := { k' with linAcc := k'.linAcc.assign a, angAcc := k'.angAcc.assign α } }, a, hr, hd a, hw, ?_, ⟨rfl, ?_⟩, rfl⟩
  · unfold estimateAccelerations
    rw [ew, Res.ok_bind, ec]
    rfl
  · rw [hα]; rfl

/-- The full statement of the part of C61 that concerns Newton's second law. -/
def C61_statement : Prop := ∀ (nc ni : ℕ) (l : List Op) (o o' : Observer) (r : Robot) (t : ℝ) (F M : V3) (V : ℝ → V3) (A : V3), Reachable nc ni l o →
  Describes o r t → TotalWrench o F M → o.estimateAccelerations = .ok o' → r.Moves o' t → Deriv r.com V → HasDerivAt V A t →
  o.mass • (A + g) = r.frame.R t *ᵥ F

/-- **C61** fails. A robot of 50 kg on which no force acts spins about the vertical axis, with its centre of mass one metre from the axis: with the accelerations
of the observer the centre of mass does not fall freely. -/
theorem C61_false : ¬ C61_statement := by
  intro H
  obtain ⟨l, o, o', a, hr, hd, hw, he, hm, h50⟩ := spin_witness ![1, 0, 0] (by
    rw [det_fin_three]; simp [inertiaAtOrigin, skewSymmetric2, vecMulVec_apply, Matrix.trace, Fin.sum_univ_three, Matrix.one_apply]; norm_num) (by apply ext3 <;> simp [cross0, cross1, cross2])
  have h1 := H _ _ _ _ _ _ _ _ _ _ _ hr hd hw he hm (comVel _) (comAcc _ _)
  have h2 := C61_newton_defect _ _ _ _ _ _ hd hw he hm _ _ (comVel _) (comAcc _ _)
  rw [h2, h50] at h1
  have := congrFun h1 0
  have hR : Kin.fallingTop.R 0 = 1 := by
    apply mext3; intro i j
    fin_cases i <;> fin_cases j <;> simp [Kin.fallingTop]
  simp [spinRobot, spin, Kin.fallingTop, cross0, cross1, cross2] at this

/-- Non-vacuity of C61_euler and C61_newton_partial: the same robot, with its centre of mass on the axis. -/
example : ∃ l o o' r t, Reachable 0 1 l o ∧ Describes o r t ∧ TotalWrench o 0 0 ∧ o.estimateAccelerations = .ok o' ∧ r.Moves o' t ∧
    r.frame.ω t ⨯₃ (r.frame.R t *ᵥ r.c t) = 0 ∧ r.frame.ω t ≠ 0 ∧ r.c t ≠ 0 := by
  obtain ⟨l, o, o', a, hr, hd, hw, he, hm, h50⟩ := spin_witness ![0, 0, 1] (by
    rw [det_fin_three]; simp [inertiaAtOrigin, skewSymmetric2, vecMulVec_apply, Matrix.trace, Fin.sum_univ_three, Matrix.one_apply]; norm_num) (by apply ext3 <;> simp [cross0, cross1, cross2])
  have hR : Kin.fallingTop.R 0 = 1 := by
    apply mext3; intro i j
    fin_cases i <;> fin_cases j <;> simp [Kin.fallingTop]
  refine ⟨l, o, o', _, 0, hr, hd, hw, he, hm, ?_, ?_, ?_⟩
  · apply ext3 <;> simp [spinRobot, spin, Kin.fallingTop, cross0, cross1, cross2]
  · intro h
    have := congrFun h 2
    simp [spinRobot, spin, Kin.fallingTop] at this
  · intro h
    have := congrFun h 2
    simp [spinRobot] at this

end StateObs.KO
