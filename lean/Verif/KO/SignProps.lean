import Verif.KO.MovedProps
import Verif.KO.SignSpec
/-!
# Property C140: the sign of the quaternions of the state
-/

namespace StateObs.KO
open StateObs Matrix Rot Kine KF
open Observer

variable {nc ni : ℕ} {o : Observer} {c : Client} {x y x' y' : DVec}

/-! ## Lemmas -/

theorem opposite_toMat (q : Quat) : (opposite q).toMat = q.toMat := by
  apply mext3; intro i j; fin_cases i <;> fin_cases j <;> simp [Quat.toMat, opposite]

theorem opposite_mul (p q : Quat) : p * opposite q = opposite (p * q) := by
  ext <;> simp [opposite] <;> ring

theorem opposite_vector (q : Quat) : vectorComponent (opposite q) = -vectorComponent q := by
  ext i; fin_cases i <;> simp [vectorComponent, opposite]

theorem SameButTorques.moved (h : SameButTorques nc ni x y) : Moved nc ni 1 0 x y := by
  have e : ∀ p q : Quat, q = p ∨ q = opposite p → q.toMat = p.toMat := fun p q h => by
    rcases h with rfl | rfl
    · rfl
    · exact opposite_toMat p
  refine ⟨?_, ?_, ?_, ?_, h.bias, h.force, h.torque, fun n hn => ?_, fun n hn => ?_⟩
  · rw [one_mulVec, add_zero, h.pos]
  · rw [Matrix.one_mul, e _ _ h.ori]
  · rw [one_mulVec, h.linVel]
  · rw [one_mulVec, h.angVel]
  · rw [one_mulVec, add_zero, h.restPos n hn]
  · rw [Matrix.one_mul, e _ _ (h.restOri n hn)]

theorem SameSituation.wrench (h : SameSituation nc ni x y) : SameWrench nc ni x y := fun n hn => ⟨h.1.contactForce n hn, h.2 n hn⟩

/-- The predicted quaternion follows the sign of the one of the state. -/
theorem predicted_sign (hp : Predicts nc ni c o) (hx : Client.StateVector nc ni x) (hy : Client.StateVector nc ni y) (hs : SameSituation nc ni x y)
    (ex : o.stateDynamics x = .ok x') (ey : o.stateDynamics y = .ok y') : ∃ d : Quat, stateOri x' = d * stateOri x ∧ stateOri y' = d * stateOri y := by
  obtain ⟨hi, hr, -⟩ := hp.ready
  have hm' := C125_partial hp heading_one hx hy hs.1.moved hs.wrench ex ey
  obtain ⟨W, a, α, k, x2, -, -, e2, -, -, -, -, -, f4, -, -, f5⟩ := stateDynamics_value hi hr (stateVector_good hx)
  obtain rfl := Res.ok.inj (e2.symm.trans ex)
  obtain ⟨W', a', α', k', y2, -, -, e2', -, -, -, -, -, g4, -, -, g5⟩ := stateDynamics_value hi hr (stateVector_good hy)
  obtain rfl := Res.ok.inj (e2'.symm.trans ey)
  refine ⟨_, f5, ?_⟩
  have h1 : at3 y 10 = at3 x 10 := hs.1.angVel
  have h2 : at3 y2 10 = at3 x2 10 := by
    have : stateAngVel y2 = (1 : M3) *ᵥ stateAngVel x2 := hm'.angVel
    rwa [one_mulVec] at this
  have h3 : o.dt • α' = o.dt • α := by
    rw [f4, g4, h1] at h2
    exact add_left_cancel h2
  have h4 : ∀ v : V3, (o.dt * o.dt / 2) • v = (o.dt / 2) • o.dt • v := fun v => by rw [smul_smul]; congr 1; ring
  rw [g5, h1, h4 α', h3, ← h4]

/-- A contact that is not set keeps its wrench. -/
theorem wrench_kept (hp : Predicts nc ni c o) (hx : Client.StateVector nc ni x) (ex : o.stateDynamics x = .ok x') {n : ℕ} (hn : ¬ IsSet o n) :
    contactForce ni n x' = contactForce ni n x ∧ contactTorque ni n x' = contactTorque ni n x := by
  obtain ⟨hi, hr, -⟩ := hp.ready
  obtain ⟨W, a, α, k, x2, -, -, e2, -, -, -, -, -, -, kp, -⟩ := stateDynamics_value hi hr (stateVector_good hx)
  obtain rfl := Res.ok.inj (e2.symm.trans ex)
  have key : ∀ j, 19 + 3 * ni + 13 * n + 7 ≤ j → j < 19 + 3 * ni + 13 * n + 13 → at1 x2 j = at1 x j := fun j h1 h2 => kp j (by omega) fun m hm => by
    rcases Nat.lt_trichotomy m n with h | rfl | h
    · omega
    · exact absurd hm hn
    · omega
  exact ⟨at3_same fun j h1 h2 => key j (by omega) (by omega), at3_same fun j h1 h2 => key j (by omega) (by omega)⟩

theorem contact_is (hp : Predicts nc ni c o) {n : ℕ} (h : IsSet o n) : ∃ vi l, ContactIs o n vi l := by
  obtain ⟨k, hk, hs⟩ := h
  obtain ⟨hi, hr, -⟩ := hp.ready
  obtain ⟨-, -, g3⟩ := hi.2.conIdx n k hk hs
  obtain ⟨vi, hvi⟩ := Option.isSome_iff_exists.1 g3
  obtain ⟨p, R, v, w, u, z, hh⟩ := (hr.con k (List.mem_of_getElem? hk) hs).kin
  exact ⟨vi, ⟨p, R, v, w⟩, k, u, z, hk, hs, hvi, hh⟩

/-- The wrench that is written for a contact. -/
theorem wrench_written (hp : Predicts nc ni c o) (hx : Client.StateVector nc ni x) (ex : o.stateDynamics x = .ok x') {n : ℕ} {vi : Visco} {l : Placed} (hc : ContactIs o n vi l) :
    contactForce ni n x' = -(((stateOri x').toMat * l.R)ᵀ *ᵥ (vi.linStiff *ᵥ statePos x' + vi.linDamp *ᵥ stateLinVel x')) ∧
    (HeldAsQuaternion o n →
      contactTorque ni n x' = -(((stateOri x').toMat * l.R)ᵀ *ᵥ ((0.5 : ℝ) • (vi.angStiff *ᵥ vectorComponent (stateOri x')) + vi.angDamp *ᵥ stateAngVel x'))) ∧
    (¬ HeldAsQuaternion o n →
      contactTorque ni n x' = -(((stateOri x').toMat * l.R)ᵀ *ᵥ ((0.5 : ℝ) • (vi.angStiff *ᵥ vectorComponent (Quat.ofMat (stateOri x').toMat)) + vi.angDamp *ᵥ stateAngVel x'))) := by
  obtain ⟨hi, hr, -⟩ := hp.ready
  obtain ⟨W, a, α, k0, x2, -, -, e2, -, -, -, -, -, -, -, wr, -⟩ := stateDynamics_value hi hr (stateVector_good hx)
  obtain rfl := Res.ok.inj (e2.symm.trans ex)
  obtain ⟨k, u, z, hk, hs, hvi, hh⟩ := hc
  obtain ⟨h1, q, -, -, h2, h3, h4⟩ := wr n k hk hs vi _ _ _ _ u z hvi hh
  refine ⟨h1, fun hq => ?_, fun hq => ?_⟩
  · obtain ⟨k', b1, b2⟩ := hq
    rw [hk] at b1
    cases b1
    rw [h2 b2] at h4
    exact h4
  · rw [← h3 fun hh => hq ⟨k, hk, hh⟩]
    exact h4

/-! ## Properties -/

/-- **C140** The prediction from a state does not depend on the signs of its quaternions, except for the torques of the contacts. Missing: these torques, see
`C140_torque_partial` and `C140_false`. -/
theorem C140_partial (hp : Predicts nc ni c o) (hx : Client.StateVector nc ni x) (hy : Client.StateVector nc ni y) (hs : SameSituation nc ni x y)
    (ex : o.stateDynamics x = .ok x') (ey : o.stateDynamics y = .ok y') : SameButTorques nc ni x' y' := by
  have hm' := C125_partial hp heading_one hx hy hs.1.moved hs.wrench ex ey
  obtain ⟨d, d1, d2⟩ := predicted_sign hp hx hy hs ex ey
  have r1 := (C106_kept hp hx ex).2.2.2
  have r2 := (C106_kept hp hy ey).2.2.2
  have p1 : statePos y' = statePos x' := by rw [hm'.pos, one_mulVec, add_zero]
  have v1 : stateLinVel y' = stateLinVel x' := by rw [hm'.linVel, one_mulVec]
  have o1 : (stateOri y').toMat = (stateOri x').toMat := by rw [hm'.ori, Matrix.one_mul]
  refine ⟨p1, ?_, v1, by rw [hm'.angVel, one_mulVec], hm'.bias, hm'.force, hm'.torque, fun n hn => by rw [hm'.restPos n hn, one_mulVec, add_zero], fun n hn => ?_, fun n hn => ?_⟩
  · rw [d1, d2]
    rcases hs.1.ori with h | h
    · left; rw [h]
    · right; rw [h, opposite_mul]
  · rw [(r1 n).2, (r2 n).2]
    exact hs.1.restOri n hn
  · by_cases hset : IsSet o n
    · obtain ⟨vi, l, hc⟩ := contact_is hp hset
      rw [(wrench_written hp hx ex hc).1, (wrench_written hp hy ey hc).1, p1, v1, o1]
    · rw [(wrench_kept hp hx ex hset).1, (wrench_kept hp hy ey hset).1]
      exact hs.1.contactForce n hn

/-- **C140** The sign of the predicted quaternion follows the one of the state. -/
theorem C140_sign (hp : Predicts nc ni c o) (hx : Client.StateVector nc ni x) (hy : Client.StateVector nc ni y) (hs : SameSituation nc ni x y)
    (ex : o.stateDynamics x = .ok x') (ey : o.stateDynamics y = .ok y') :
    (stateOri y = stateOri x → stateOri y' = stateOri x') ∧ (stateOri y = opposite (stateOri x) → stateOri y' = opposite (stateOri x')) := by
  obtain ⟨d, d1, d2⟩ := predicted_sign hp hx hy hs ex ey
  exact ⟨fun h => by rw [d1, d2, h], fun h => by rw [d1, d2, h, opposite_mul]⟩

/-- **C140** The predicted torque of a contact: it does not depend on the sign if the user gave the orientation of the contact as a matrix; if they gave a quaternion, the
part of the stiffness changes its sign with the quaternion of the robot. -/
theorem C140_torque_partial (hp : Predicts nc ni c o) (hx : Client.StateVector nc ni x) (hy : Client.StateVector nc ni y) (hs : SameSituation nc ni x y)
    (ex : o.stateDynamics x = .ok x') (ey : o.stateDynamics y = .ok y') {n : ℕ} {vi : Visco} {l : Placed} (hc : ContactIs o n vi l) :
    (¬ HeldAsQuaternion o n → contactTorque ni n y' = contactTorque ni n x') ∧
    (stateOri y = stateOri x → contactTorque ni n y' = contactTorque ni n x') ∧
    (HeldAsQuaternion o n → stateOri y = opposite (stateOri x) →
      contactTorque ni n y' = contactTorque ni n x' + ((stateOri x').toMat * l.R)ᵀ *ᵥ (vi.angStiff *ᵥ ![(stateOri x').x, (stateOri x').y, (stateOri x').z])) := by
  obtain ⟨s1, s2⟩ := C140_sign hp hx hy hs ex ey
  have hm' := C125_partial hp heading_one hx hy hs.1.moved hs.wrench ex ey
  have o1 : (stateOri y').toMat = (stateOri x').toMat := by rw [hm'.ori, Matrix.one_mul]
  have w1 : stateAngVel y' = stateAngVel x' := by rw [hm'.angVel, one_mulVec]
  obtain ⟨-, a1, a2⟩ := wrench_written hp hx ex hc
  obtain ⟨-, b1, b2⟩ := wrench_written hp hy ey hc
  have hmat : ¬ HeldAsQuaternion o n → contactTorque ni n y' = contactTorque ni n x' := fun h => by rw [a2 h, b2 h, o1, w1]
  refine ⟨hmat, fun h => ?_, fun h he => ?_⟩
  · by_cases hq : HeldAsQuaternion o n
    · rw [a1 hq, b1 hq, w1, s1 h]
    · exact hmat hq
  · rw [a1 h, b1 h, w1, o1, s2 he, opposite_vector]
    show _ = _ + _ *ᵥ (vi.angStiff *ᵥ vectorComponent (stateOri x'))
    rw [neg_eq_iff_eq_neg, neg_add, neg_neg, mulVec_neg, smul_neg, mulVec_add, mulVec_add, mulVec_neg]
    generalize ((stateOri x').toMat * l.R)ᵀ = A
    generalize vi.angStiff *ᵥ vectorComponent (stateOri x') = v
    rw [mulVec_smul]
    ext i
    simp only [Pi.add_apply, Pi.neg_apply, Pi.smul_apply, smul_eq_mul]
    ring

/-- **C140** The predicted measurements do not depend on the signs of the quaternions. (No absolute pose sensor.) -/
theorem C140_measurement (hp : Predicts nc ni c o) (h1 : c.pending = true) (h2 : c.state = true) (h3 : c.contacts ⊆ c.moved)
    (hx : Client.StateVector nc ni x) (hy : Client.StateVector nc ni y) (hs : SameSituation nc ni x y) :
    ∃ oy z cov yb, o.buildMeasurement = .ok (oy, z, cov) ∧ yb.size = z.size ∧ oy.measureDynamics x o.kData = .ok yb ∧ oy.measureDynamics y o.kData = .ok yb :=
  C125_measurement hp h1 h2 h3 heading_one hx hy hs.1.moved hs.wrench

/-! ## The counterexample -/

/-- The robot at the origin with the quaternion `(w, 0, 0, z)`. -/
noncomputable def headingState (w z : ℝ) : DVec := ⟨19 + 1 * 3 + 1 * 13, fun i => if i.val = 6 ∨ i.val = 28 then w else if i.val = 5 ∨ i.val = 27 then z else 0⟩

theorem heading_state {w z : ℝ} (h : w ^ 2 + z ^ 2 = 1) : Client.StateVector 1 1 (headingState w z) :=
  ⟨fun i => if i = 6 ∨ i = 28 then w else if i = 5 ∨ i = 27 then z else 0, rfl, by norm_num; linarith⟩

theorem heading_ori (w z : ℝ) : stateOri (headingState w z) = ⟨w, 0, 0, z⟩ ∧ contactOri 1 0 (headingState w z) = ⟨w, 0, 0, z⟩ := by
  constructor <;> simp [stateOri, contactOri, entry, headingState]

theorem heading_same (w z : ℝ) : SameSituation 1 1 (headingState w z) (headingState (-w) (-z)) := by
  refine ⟨⟨?_, ?_, ?_, ?_, fun i hi => ?_, ?_, ?_, fun n hn => ?_, fun n hn => ?_, fun n hn => ?_⟩, fun n hn => ?_⟩
  all_goals try obtain rfl : n = 0 := by omega
  all_goals try obtain rfl : i = 0 := by omega
  · ext i; fin_cases i <;> simp [statePos, at3, headingState]
  · right; rw [(heading_ori w z).1, (heading_ori _ _).1]; simp [opposite]
  · ext i; fin_cases i <;> simp [stateLinVel, at3, headingState]
  · ext i; fin_cases i <;> simp [stateAngVel, at3, headingState]
  · ext i; fin_cases i <;> simp [stateBias, at3, headingState]
  · ext i; fin_cases i <;> simp [stateForce, at3, headingState]
  · ext i; fin_cases i <;> simp [stateTorque, at3, headingState]
  · ext i; fin_cases i <;> simp [contactPos, at3, headingState]
  · right; rw [(heading_ori w z).2, (heading_ori _ _).2]; simp [opposite]
  · ext i; fin_cases i <;> simp [contactForce, at3, headingState]
  · ext i; fin_cases i <;> simp [contactTorque, at3, headingState]

/-- The half turn about the vertical. -/
def halfTurn : M3 := !![-1, 0, 0; 0, -1, 0; 0, 0, 1]

theorem halfTurn_heading : Heading halfTurn := by
  refine ⟨⟨?_, ?_⟩, ?_⟩
  · ext i j; fin_cases i <;> fin_cases j <;> simp [halfTurn, Matrix.mul_apply, Fin.sum_univ_three]
  · simp [halfTurn, det_fin_three]
  · ext i; fin_cases i <;> simp [halfTurn, mulVec, dotProduct, Fin.sum_univ_three]

theorem halfTurn_moved : Moved 1 1 halfTurn 0 (headingState 1 0) (headingState 0 1) ∧ SameWrench 1 1 (headingState 1 0) (headingState 0 1) := by
  have e : Quat.toMat ⟨0, 0, 0, 1⟩ = halfTurn * Quat.toMat ⟨1, 0, 0, 0⟩ := by
    apply mext3; intro i j; fin_cases i <;> fin_cases j <;> simp [Quat.toMat, halfTurn, Matrix.mul_apply, Fin.sum_univ_three] <;> norm_num
  refine ⟨⟨?_, ?_, ?_, ?_, fun i hi => ?_, ?_, ?_, fun n hn => ?_, fun n hn => ?_⟩, fun n hn => ?_⟩
  all_goals try obtain rfl : n = 0 := by omega
  all_goals try obtain rfl : i = 0 := by omega
  · ext i; fin_cases i <;> simp [statePos, at3, headingState, mulVec, dotProduct, Fin.sum_univ_three]
  · rw [(heading_ori _ _).1, (heading_ori _ _).1, e]
  · ext i; fin_cases i <;> simp [stateLinVel, at3, headingState, mulVec, dotProduct, Fin.sum_univ_three]
  · ext i; fin_cases i <;> simp [stateAngVel, at3, headingState, mulVec, dotProduct, Fin.sum_univ_three]
  · ext i; fin_cases i <;> simp [stateBias, at3, headingState]
  · ext i; fin_cases i <;> simp [stateForce, at3, headingState]
  · ext i; fin_cases i <;> simp [stateTorque, at3, headingState]
  · ext i; fin_cases i <;> simp [contactPos, at3, headingState, mulVec, dotProduct, Fin.sum_univ_three]
  · rw [(heading_ori _ _).2, (heading_ori _ _).2, e]
  · constructor
    · ext i; fin_cases i <;> simp [contactForce, at3, headingState]
    · ext i; fin_cases i <;> simp [contactTorque, at3, headingState]

theorem toMat_of_vector {q : Quat} (h0 : vectorComponent q = 0) : q.toMat = 1 := by
  have h1 : q.x = 0 := congrFun h0 0
  have h2 : q.y = 0 := congrFun h0 1
  have h3 : q.z = 0 := congrFun h0 2
  ext i j
  fin_cases i <;> fin_cases j <;> simp [Quat.toMat, h1, h2, h3]

/-- **C140** The full claim is false: with the same robot and contact, two state vectors that differ only by the sign of a quaternion give different predicted torques. -/
theorem C140_false : ¬ C140_statement := by
  intro h
  obtain ⟨c, o, l, hp, -, -, -, hc, -, l2, -, -, hq⟩ := predict_quaternion 0
  have key : ∀ w z x', w ^ 2 + z ^ 2 = 1 → o.stateDynamics (headingState w z) = .ok x' → (stateOri x').toMat = 1 := by
    intro w z x' hw ex
    have hx := heading_state hw
    have hy : Client.StateVector 1 1 (headingState (-w) (-z)) := heading_state (by linarith)
    obtain ⟨x2, ex2, -, hn⟩ := C106_returns hp hx
    obtain rfl := Res.ok.inj (ex2.symm.trans ex)
    obtain ⟨y', ey, -⟩ := C106_returns hp hy
    have e1 := (h 1 1 c o _ _ _ _ hp hx hy (heading_same w z) ex ey).2 0 one_pos
    have e2 := (C140_torque_partial hp hx hy (heading_same w z) ex ey hc).2.2 hq (by
      rw [(heading_ori w z).1, (heading_ori _ _).1]; simp [opposite])
    rw [e1, left_eq_add, l2, Matrix.mul_one, one_mulVec] at e2
    have e3 := congrArg (fun v => (stateOri x2).toMat *ᵥ v) e2
    simp only [(Quat.toMat_isRot hn).cancel', mulVec_zero] at e3
    exact toMat_of_vector e3
  have hx : Client.StateVector 1 1 (headingState 1 0) := heading_state (by norm_num)
  have hy : Client.StateVector 1 1 (headingState 0 1) := heading_state (by norm_num)
  obtain ⟨x', ex, -⟩ := C106_returns hp hx
  obtain ⟨y', ey, -⟩ := C106_returns hp hy
  have hm := (C125_partial hp halfTurn_heading hx hy halfTurn_moved.1 halfTurn_moved.2 ex ey).ori
  rw [key _ _ _ (by norm_num) ex, key _ _ _ (by norm_num) ey, Matrix.mul_one] at hm
  have := congrFun (congrFun hm 0) 0
  simp [halfTurn] at this
  norm_num at this

/-- The hypotheses of the theorems above are met. -/
example : ∃ (c : Client) (o : Observer) (x' y' : DVec) (vi : Visco) (l : Placed), Predicts 1 1 c o ∧ Client.StateVector 1 1 (headingState 0 1) ∧
    Client.StateVector 1 1 (headingState (-0) (-1)) ∧ SameSituation 1 1 (headingState 0 1) (headingState (-0) (-1)) ∧ o.stateDynamics (headingState 0 1) = .ok x' ∧
    o.stateDynamics (headingState (-0) (-1)) = .ok y' ∧ ContactIs o 0 vi l ∧ HeldAsQuaternion o 0 := by
  obtain ⟨c, o, l, hp, -, -, -, hc, -, l2, -, -, hq⟩ := predict_quaternion 0
  have hx : Client.StateVector 1 1 (headingState 0 1) := heading_state (by norm_num)
  have hy : Client.StateVector 1 1 (headingState (-0) (-1)) := heading_state (by norm_num)
  obtain ⟨x', ex, -⟩ := C106_returns hp hx
  obtain ⟨y', ey, -⟩ := C106_returns hp hy
  exact ⟨c, o, x', y', _, l, hp, hx, hy, heading_same 0 1, ex, ey, hc, hq⟩

end StateObs.KO
