import Verif.KO.SignLemmas
import Verif.KO.PredictSpec
/-!
# The components of the predicted state (lemmas for C106)
-/

namespace StateObs.KO
open StateObs Matrix Rot Kine KF
open Observer

variable {nc ni : ℕ} {o o' : Observer}

/-- The wrench of a contact that the dynamics write (helper): `p`, `R`, `v`, `w` the kinematics of the robot, `S` the orientation of the contact in it; `r`: the
contact holds its orientation as a quaternion, the vector used is then the one of the quaternion `Q`, otherwise of the quaternion computed from the matrix. -/
def Written (vi : Visco) (p v w : V3) (R S : M3) (Q : Quat) (r : Prop) (x : DVec) (i : ℕ) : Prop :=
  at3 x i = -((R * S)ᵀ *ᵥ (vi.linStiff *ᵥ p + vi.linDamp *ᵥ v)) ∧
  ∃ q : Quat, q.normSq = 1 ∧ q.toMat = R ∧ (r → q = Q) ∧ (¬ r → q = Quat.ofMat R) ∧ at3 x (i + 3) = -((R * S)ᵀ *ᵥ ((0.5 : ℝ) • (vi.angStiff *ᵥ vectorComponent q) + vi.angDamp *ᵥ w))

theorem at3_same {x y : DVec} {i : ℕ} (h : ∀ j, i ≤ j → j < i + 3 → at1 x j = at1 y j) : at3 x i = at3 y i := by
  rw [at3_eq, at3_eq, h i (by omega) (by omega), h _ (by omega) (by omega), h _ (by omega) (by omega)]

theorem Written.same {vi : Visco} {p v w : V3} {R S : M3} {Q : Quat} {r : Prop} {x y : DVec} {i : ℕ} (h : Written vi p v w R S Q r x i) (e : ∀ j, i ≤ j → j < i + 6 → at1 y j = at1 x j) :
    Written vi p v w R S Q r y i := by
  obtain ⟨h1, q, h2, h3, h5, h6, h4⟩ := h
  exact ⟨by rw [← h1]; exact at3_same fun j a b => e j a (by omega), q, h2, h3, h5, h6, by rw [← h4]; exact at3_same fun j a b => e j (by omega) (by omega)⟩

/-- The error of the kinematics of a contact is the kinematics of the robot. -/
theorem error_value {p1 v1 w1 p v w : V3} {R1 R : M3} {y1 z1 y z : Option V3} (hR1 : IsRot R1) (hR : IsRot R) : ∃ a b,
    Kin.mulValue (Kin.mulValue ⟨some p1, some R1, some v1, some w1, y1, z1⟩ ⟨some p, some R, some v, some w, y, z⟩)
      (Kin.invValue ⟨some p, some R, some v, some w, y, z⟩) = ⟨some p1, some R1, some v1, some w1, a, b⟩ := by
  have hRR : R * Rᵀ = 1 := mul_eq_one_comm.1 hR.1
  have e : ∀ u : V3, R1 *ᵥ (R *ᵥ (Rᵀ *ᵥ u)) = R1 *ᵥ u := fun u => by rw [mulVec_mulVec u R Rᵀ, hRR, one_mulVec]
  obtain ⟨P, S, V, W, A, B, hv⟩ : ∃ P S V W A B, Kin.mulValue (Kin.mulValue ⟨some p1, some R1, some v1, some w1, y1, z1⟩ ⟨some p, some R, some v, some w, y, z⟩)
      (Kin.invValue ⟨some p, some R, some v, some w, y, z⟩) = ⟨P, S, V, W, A, B⟩ := ⟨_, _, _, _, _, _, rfl⟩
  have h1 := congrArg Value.pos hv
  have h2 := congrArg Value.ori hv
  have h3 := congrArg Value.linVel hv
  have h4 := congrArg Value.angVel hv
  refine ⟨A, B, ?_⟩
  rw [hv, Value.mk.injEq]
  refine ⟨h1.symm.trans ?_, h2.symm.trans ?_, h3.symm.trans ?_, h4.symm.trans ?_, rfl, rfl⟩
  · simp only [Kin.mulValue, Kin.invValue, Option.bind_eq_bind, Option.bind_some, Option.some.injEq, mulVec_neg, ← mulVec_mulVec, e]
    abel
  · simp only [Kin.mulValue, Kin.invValue, Option.bind_eq_bind, Option.bind_some, Option.some.injEq, Option.map_some, mul_assoc, hRR, mul_one]
  · simp only [Kin.mulValue, Kin.invValue, Option.bind_eq_bind, Option.bind_some, Option.some.injEq, mulVec_neg, ← mulVec_mulVec, e, cross_neg, mulVec_sub,
      hR1.cross, add_cross]
    abel
  · simp only [Kin.mulValue, Kin.invValue, Option.bind_eq_bind, Option.bind_some, Option.some.injEq, Option.map_some, mulVec_neg, ← mulVec_mulVec, e]
    abel

theorem contactDynamics_value {c : Contact} {s : DVec × Kin} {a : ℕ} {vi : Visco} {p1 v1 w1 p v w : V3} {R1 R : M3} {Q : Quat} {y1 z1 y z : Option V3} (hset : c.isSet = true)
    (ha : c.index = .ok a) (hx : a + 13 ≤ s.1.size) (hv : c.visco = some vi) (hk1 : s.2.Has ⟨some p1, some R1, some v1, some w1, y1, z1⟩)
    (hk : c.localKine.Has ⟨some p, some R, some v, some w, y, z⟩) (hQ : s.2.ori.q = ⟨true, some Q⟩) :
    ∃ x' k', contactDynamics s c = .ok (x', k') ∧ x'.size = s.1.size ∧ k'.Has ⟨some p1, some R1, some v1, some w1, y1, z1⟩ ∧ k'.ori.q = ⟨true, some Q⟩ ∧
      (∀ j, j < a + 7 ∨ a + 13 ≤ j → at1 x' j = at1 s.1 j) ∧ Written vi p1 v1 w1 R1 R Q (c.localKine.ori.isQuaternionSet = true) x' (a + 7) := by
  obtain ⟨of, ef, rf, -⟩ := Ori.Rep.fillMatrix hk.ori
  have hlk := hk.setOri rfl rf
  have elk : Contact.filled c = .ok { c.localKine with ori := of } := by rw [Contact.filled, ef]; rfl
  obtain ⟨g, g1, g2, eg, hg, hg1, hg2⟩ := Kin.product_spec (k := Kin.new) hk1 hlk rfl (Or.inl rfl)
  obtain ⟨i, ei, hi⟩ := Kin.inverse_spec hg2 rfl
  obtain ⟨e, e1, e2, ee, he, he1, he2⟩ := Kin.product_spec (k := Kin.new) hg hi rfl (Or.inl rfl)
  obtain ⟨a1, a2, ev⟩ := error_value (p1 := p1) (v1 := v1) (w1 := w1) (p := p) (v := v) (w := w) (y1 := y1) (z1 := z1) (y := y) (z := z) hk1.rot hk.rot
  rw [ev] at he
  have hgo : e1.ori.Rep (R1 * R) := he1.ori
  obtain ⟨Rc, eR, hR⟩ := hgo.inverse
  obtain ⟨q, qo, eq, -, q1, q2⟩ := Ori.Rep.toQuaternion he.ori
  obtain ⟨f, fe, hf⟩ := hR.rotate (vi.linStiff *ᵥ p1 + vi.linDamp *ᵥ v1)
  obtain ⟨f', fe', -⟩ := hf.rotate ((0.5 : ℝ) • (vi.angStiff *ᵥ vectorComponent q) + vi.angDamp *ᵥ w1)
  obtain ⟨x1, ex1, sx1, kx1, lx1⟩ := setSeg_live (n := 3) (i := a + 7) (v := s.1) (-((R1 * R)ᵀ *ᵥ (vi.linStiff *ᵥ p1 + vi.linDamp *ᵥ v1))) (by omega)
  obtain ⟨x2, ex2, sx2, kx2, lx2⟩ := setSeg_live (n := 3) (i := a + 7 + 3) (v := x1)
    (-((R1 * R)ᵀ *ᵥ ((0.5 : ℝ) • (vi.angStiff *ᵥ vectorComponent q) + vi.angDamp *ᵥ w1))) (by omega)
  refine ⟨x2, g1, ?_, by rw [sx2, sx1], hg1, (Kin.product_first eg).trans hQ, fun j hj => by rw [kx2 _ (by omega), kx1 _ (by omega)], ?_, q, q1, q2, fun hr => ?_, fun hr => ?_, ?_⟩
  · rw [contactDynamics, if_pos hset, elk, Res.ok_bind, hv, rd, Res.ok_bind, Kin.product, eg, Res.ok_bind]
    simp only [ei, Res.ok_bind, Kin.product, ee, eR, ha, he.pos.read, he.linVel.read, fe, ex1, eq, he.angVel.read, fe', ex2]
  · have l0 := lx1 0 (by omega)
    have l1 := lx1 1 (by omega)
    have l2 := lx1 2 (by omega)
    rw [at3_eq, kx2 _ (by omega), kx2 _ (by omega), kx2 _ (by omega), l1, l2, ← Nat.add_zero (a + 7), l0]
    apply ext3 <;> rfl
  · obtain ⟨b, hb, hb1⟩ : ∃ b : Quat, c.localKine.ori.q = ⟨true, some b⟩ ∧ b.normSq = 1 := by
      rcases hk.ori.cases with ⟨b, mv, e, h1, -⟩ | ⟨b, e, h1⟩ | ⟨b, e, h1, -⟩
      · exact ⟨b, by rw [e], h1⟩
      · rw [e] at hr; simp [Ori.isQuaternionSet, CItem.isSet, dbg, CheckCfg.doCheck] at hr
      · exact ⟨b, by rw [e], h1⟩
    obtain ⟨m1, m2⟩ := Kin.product_q hQ ((Ori.fillMatrix_q ef).trans hb) eg
    obtain ⟨m3, -⟩ := Kin.product_q m1 (Kin.getInverse_q (m2.trans ((Ori.fillMatrix_q ef).trans hb)) ei) ee
    exact (Ori.toQuaternion_q m3 eq).1.trans (by rw [Quat.inverse_unit hb1, Quat.mul_assoc, Quat.mul_conj_self hb1, Quat.mul_one])
  · have hb : c.localKine.ori.q.flag = false := by
      simpa [Ori.isQuaternionSet, CItem.isSet, dbg, CheckCfg.doCheck] using hr
    have st : ∀ {o : Ori} {S : M3}, o.Rep S → o.isSet = true := fun h => by
      simpa [Ori.isSet, Ori.isQuaternionSet, Ori.isMatrixSet, CItem.isSet, dbg, CheckCfg.doCheck, or_comm] using h.set
    obtain ⟨-, m2⟩ := Kin.product_nq (st rf) (by rw [Ori.fillMatrix_q ef]; exact hb) eg
    obtain ⟨m3, -⟩ := Kin.product_nq (st hi.ori) (Kin.getInverse_nq m2 ei) ee
    exact Ori.toQuaternion_nq m3 he.ori eq
  · have l0 := lx2 0 (by omega)
    have l1 := lx2 1 (by omega)
    have l2 := lx2 2 (by omega)
    rw [at3_eq, l1, l2, ← Nat.add_zero (a + 7 + 3), l0]
    apply ext3 <;> rfl

theorem contacts_value {p1 v1 w1 : V3} {R1 : M3} {Q : Quat} {y1 z1 : Option V3} {N : ℕ} : ∀ (L : List Contact) (m : ℕ) (s : DVec × Kin), s.1.size = N →
    s.2.Has ⟨some p1, some R1, some v1, some w1, y1, z1⟩ → s.2.ori.q = ⟨true, some Q⟩ →
    (∀ i c, L[i]? = some c → c.isSet = true → c.index = .ok (19 + 3 * ni + 13 * (m + i)) ∧ 19 + 3 * ni + 13 * (m + i) + 13 ≤ N ∧ Moving c.localKine ∧ c.visco.isSome = true) →
    ∃ x' k', L.foldlM contactDynamics s = .ok (x', k') ∧ x'.size = N ∧
      (∀ j, (∀ i c, L[i]? = some c → c.isSet = true → j < 19 + 3 * ni + 13 * (m + i) + 7 ∨ 19 + 3 * ni + 13 * (m + i) + 13 ≤ j) → at1 x' j = at1 s.1 j) ∧
      ∀ i c, L[i]? = some c → c.isSet = true → ∀ vi p R v w y z, c.visco = some vi → c.localKine.Has ⟨some p, some R, some v, some w, y, z⟩ →
        Written vi p1 v1 w1 R1 R Q (c.localKine.ori.isQuaternionSet = true) x' (19 + 3 * ni + 13 * (m + i) + 7) := by
  intro L
  induction L with
  | nil => exact fun m s hN _ _ _ => ⟨s.1, s.2, rfl, hN, fun _ _ => rfl, fun i c h => by simp at h⟩
  | cons d L ih =>
    intro m s hN hs hQ hL
    have hL' : ∀ i c, L[i]? = some c → c.isSet = true → c.index = .ok (19 + 3 * ni + 13 * (m + 1 + i)) ∧ 19 + 3 * ni + 13 * (m + 1 + i) + 13 ≤ N ∧ Moving c.localKine ∧
        c.visco.isSome = true := fun i c h1 h2 => by
      have := hL (i + 1) c (by simpa using h1) h2
      rwa [show m + (i + 1) = m + 1 + i by omega] at this
    by_cases hd : d.isSet = true
    · obtain ⟨h1, h2, ⟨p, R, v, w, y, z, hk⟩, h4⟩ := hL 0 d rfl hd
      obtain ⟨vi, hvi⟩ := Option.isSome_iff_exists.1 h4
      rw [Nat.add_zero] at h1 h2
      obtain ⟨x1, k1, e1, z1, g1, gq, kp, wr⟩ := contactDynamics_value hd h1 (by rw [hN]; exact h2) hvi hs hk hQ
      obtain ⟨x2, k2, e2, z2, kp2, wr2⟩ := ih (m + 1) (x1, k1) (by rw [← hN]; exact z1) g1 gq hL'
      have keep : ∀ j, 19 + 3 * ni + 13 * m + 7 ≤ j → j < 19 + 3 * ni + 13 * m + 13 → at1 x2 j = at1 x1 j := fun j a b => kp2 j fun i c _ _ => by left; omega
      refine ⟨x2, k2, by rw [List.foldlM_cons, e1, Res.ok_bind, e2], z2, fun j hj => ?_, fun i c hi hc vi' p' R' v' w' y' z' hv' hk' => ?_⟩
      · rw [kp2 j fun i c h1 h2 => ?_]
        · exact kp j (by simpa using hj 0 d rfl hd)
        · have := hj (i + 1) c (by simpa using h1) h2
          omega
      · cases i with
        | zero =>
          simp only [List.getElem?_cons_zero, Option.some.injEq] at hi
          subst hi
          obtain rfl := Option.some.inj (hvi.symm.trans hv')
          have := hk.inj hk'
          simp only [Value.mk.injEq, Option.some.injEq] at this
          obtain ⟨-, rfl, -⟩ := this
          rw [Nat.add_zero]
          exact wr.same fun j a b => keep j (by omega) (by omega)
        | succ i =>
          have := wr2 i c (by simpa using hi) hc vi' p' R' v' w' y' z' hv' hk'
          rwa [show m + 1 + i = m + (i + 1) by omega] at this
    · have e1 : contactDynamics s d = .ok s := by rw [contactDynamics, if_neg hd]
      obtain ⟨x2, k2, e2, z2, kp2, wr2⟩ := ih (m + 1) s hN hs hQ hL'
      refine ⟨x2, k2, by rw [List.foldlM_cons, e1, Res.ok_bind, e2], z2, fun j hj => kp2 j fun i c h1 h2 => ?_, fun i c hi hc => ?_⟩
      · have := hj (i + 1) c (by simpa using h1) h2
        omega
      · cases i with
        | zero =>
          simp only [List.getElem?_cons_zero, Option.some.injEq] at hi
          subst hi
          exact absurd hc hd
        | succ i =>
          have := wr2 i c (by simpa using hi) hc
          rwa [show m + 1 + i = m + (i + 1) by omega] at this

theorem stateDynamics_value (hi : Inv nc ni o) (hr : Ready nc ni o) {x : DVec} (hx : GoodState nc ni x) :
    ∃ W a α k' x', o.addUnmodeledAndContactWrench x (o.addForce, o.addTorque) = .ok W ∧ o.computeAccelerations (loaded Kin.new x) W.1 W.2 = .ok (a, α, k') ∧
      o.stateDynamics x = .ok x' ∧ x'.size = x.size ∧ (stateOri x').normSq = 1 ∧
      at3 x' 0 = at3 x 0 + (o.dt • at3 x 7 + (o.dt * o.dt / 2) • a) ∧ at3 x' 7 = at3 x 7 + o.dt • a ∧
      (stateOri x').toMat = vecRot (o.dt • at3 x 10 + (o.dt * o.dt / 2) • α) * (stateOri x).toMat ∧ at3 x' 10 = at3 x 10 + o.dt • α ∧
      (∀ j, 13 ≤ j → (∀ n, IsSet o n → j < 19 + 3 * ni + 13 * n + 7 ∨ 19 + 3 * ni + 13 * n + 13 ≤ j) → at1 x' j = at1 x j) ∧
      (∀ n c, o.contacts[n]? = some c → c.isSet = true → ∀ vi p R v w y z, c.visco = some vi → c.localKine.Has ⟨some p, some R, some v, some w, y, z⟩ →
        Written vi (at3 x' 0) (at3 x' 7) (at3 x' 10) (stateOri x').toMat R (stateOri x') (c.localKine.ori.isQuaternionSet = true) x' (19 + 3 * ni + 13 * n + 7)) ∧
      stateOri x' = rotationVectorToQuaternion (o.dt • at3 x 10 + (o.dt * o.dt / 2) • α) * stateOri x := by
  obtain ⟨W, ew⟩ := addWrench_live hr hx.size (o.addForce, o.addTorque)
  obtain ⟨s, es⟩ := seg_live (n := 13) (i := kineIndex) (v := x) (by simp [kineIndex, hx.size]; omega)
  obtain ⟨b, hb, hm, hd⟩ := hr.body
  have hk0 := loaded_has Kin.new (x := x) hx.quat rfl rfl
  obtain ⟨a, α, k', ec, hk'⟩ := computeAccelerations_live (F := W.1) (M := W.2) hk0 hb hm hd
  set k : Kin := { k' with linAcc := k'.linAcc.assign a, angAcc := k'.angAcc.assign α } with hkd
  have ek : o.stateKine x = .ok k := by
    rw [stateKine, ew, Res.ok_bind, es, Res.ok_bind, fromVector_loaded _ es, Res.ok_bind, ec]
    rfl
  have hk : k.Has ⟨some (at3 x 0), some (stateOri x).toMat, some (at3 x 7), some (at3 x 10), some a, some α⟩ := ⟨hk'.pos, hk'.ori, hk'.linVel, hk'.angVel, rfl, rfl⟩
  obtain ⟨k1, e1, h1⟩ := Kin.integrate_spec hk o.dt
  have h1 : k1.Has ⟨some (at3 x 0 + (o.dt • at3 x 7 + (o.dt * o.dt / 2) • a)), some (vecRot (o.dt • at3 x 10 + (o.dt * o.dt / 2) • α) * (stateOri x).toMat),
    some (at3 x 7 + o.dt • a), some (at3 x 10 + o.dt • α), some a, some α⟩ := h1
  generalize hP : at3 x 0 + (o.dt • at3 x 7 + (o.dt * o.dt / 2) • a) = P at h1 ⊢
  generalize hR : vecRot (o.dt • at3 x 10 + (o.dt * o.dt / 2) • α) * (stateOri x).toMat = R at h1 ⊢
  generalize hV : at3 x 7 + o.dt • a = V at h1 ⊢
  generalize hW : at3 x 10 + o.dt • α = U at h1 ⊢
  obtain ⟨q, oq, eq, ho, hn, hq⟩ := Ori.Rep.toVector4 h1.ori
  have q0 : k1.ori.q = ⟨true, some (rotationVectorToQuaternion (o.dt • at3 x 10 + (o.dt * o.dt / 2) • α) * stateOri x)⟩ :=
    Kin.integrate_q (k := k) ((computeAccelerations_q ec).trans rfl) hk.angVel hk.angAcc e1
  obtain ⟨q3, q4⟩ := Ori.toVector4_q q0 eq
  have q5 : q = rotationVectorToQuaternion (o.dt • at3 x 10 + (o.dt * o.dt / 2) • α) * stateOri x := by
    have c0 := congrFun q3 0; have c1 := congrFun q3 1; have c2 := congrFun q3 2; have c3 := congrFun q3 3
    exact Quat.ext c3 c0 c1 c2
  have ev : k1.toVector flagsStateKine = .ok ([P 0, P 1, P 2, q.x, q.y, q.z, q.w, V 0, V 1, V 2, U 0, U 1, U 2], { k1 with ori := oq }) := by
    simp only [Kin.toVector, flagsStateKine, Kin.storeItem, Kin.storeOri, h1.pos.read, h1.linVel.read, h1.angVel.read, eq, Res.ok_bind, if_true]
    rfl
  obtain ⟨x1, ex, sx, kx, lx⟩ := setList_live (n := 13) (i := kineIndex) (v := x)
    (l := [P 0, P 1, P 2, q.x, q.y, q.z, q.w, V 0, V 1, V 2, U 0, U 1, U 2]) rfl (by simp [kineIndex, hx.size]; omega)
  simp only [kineIndex, zero_add] at lx kx
  obtain ⟨x2, k2, e2, z2, kp, wr⟩ := contacts_value (ni := ni) o.contacts 0 (x1, { k1 with ori := oq }) sx (h1.setOri rfl ho) (Q := q) (by rw [q5]; exact q4.trans q0) (by
    intro i c h2 h3
    have hlt : i < nc := isSet_lt hi ⟨c, h2, h3⟩
    obtain ⟨g1, -, g3⟩ := hi.2.conIdx i c h2 h3
    refine ⟨?_, by rw [hx.size]; omega, (hr.con c (List.mem_of_getElem? h2) h3).kin, g3⟩
    have : decide (c.stateIndex > 0) = true := by rw [g1]; simp; omega
    rw [Contact.index, this, g1]
    simp
    omega)
  have low : ∀ j, j < 13 → at1 x2 j = [P 0, P 1, P 2, q.x, q.y, q.z, q.w, V 0, V 1, V 2, U 0, U 1, U 2].getD j 0 := fun j hj => by
    rw [kp j fun i c _ _ => by left; omega, lx j hj]
  have f1 : at3 x2 0 = P := by
    rw [at3_eq, low _ (by omega), low _ (by omega), low _ (by omega)]
    apply ext3 <;> rfl
  have f2 : at3 x2 7 = V := by
    rw [at3_eq, low _ (by omega), low _ (by omega), low _ (by omega)]
    apply ext3 <;> rfl
  have f3 : at3 x2 10 = U := by
    rw [at3_eq, low _ (by omega), low _ (by omega), low _ (by omega)]
    apply ext3 <;> rfl
  have f4 : stateOri x2 = q := by
    show (⟨at1 x2 6, at1 x2 3, at1 x2 4, at1 x2 5⟩ : Quat) = q
    rw [low _ (by omega), low _ (by omega), low _ (by omega), low _ (by omega)]
    rfl
  refine ⟨W, a, α, k', x2, ew, ec, ?_, z2, by rw [f4, hn], f1.trans hP.symm, f2.trans hV.symm, by rw [f4, hq, hR], f3.trans hW.symm, fun j h13 hj => ?_, fun n c h2 h3 vi p R' v w y z h4 h5 => ?_, by rw [f4, q5]⟩
  · rw [stateDynamics, ek, Res.ok_bind, e1, Res.ok_bind, ev, Res.ok_bind, ex, Res.ok_bind, e2]
    rfl
  · rw [kp j fun i c h2 h3 => ?_, kx j (by omega)]
    have := hj i ⟨c, h2, h3⟩
    omega
  · rw [f1, f2, f3, f4, hq]
    have := wr n c h2 h3 vi p R' v w y z h4 h5
    rwa [zero_add] at this

end StateObs.KO
