import Verif.KO.ClientSim
/-!
# The quaternion that an orientation holds, through the operations on kinematics (lemmas for C140)
-/

namespace StateObs.Kine.Ori
open StateObs Matrix Rot Kine

theorem fillMatrix_q {o r : Ori} (h : o.fillMatrix = .ok r) : r.q = o.q := by
  unfold fillMatrix at h
  split_ifs at h
  · cases h; rfl
  · simp only [quaternionToMatrix, Res.bind_eq_ok] at h
    obtain ⟨_, ⟨q, -, h1⟩, h2⟩ := h
    cases h1; cases h2; rfl

theorem rotate_q {o : Ori} {v : V3} {r : V3 × Ori} (h : o.rotate v = .ok r) : r.2.q = o.q := by
  simp only [rotate, Res.bind_eq_ok] at h
  obtain ⟨_, -, o', h1, m, -, h2⟩ := h
  cases h2
  exact fillMatrix_q h1

theorem toMatrix3_q {o : Ori} {r : M3 × Ori} (h : o.toMatrix3 = .ok r) : r.2.q = o.q := by
  simp only [toMatrix3, Res.bind_eq_ok] at h
  obtain ⟨_, -, o', h1, m, -, h2⟩ := h
  cases h2
  exact fillMatrix_q h1

theorem set_of_q {o : Ori} {q : Quat} (h : o.q = ⟨true, some q⟩) : o.isQuaternionSet = true := by
  simp [isQuaternionSet, h, CItem.isSet]

theorem read_of_q {o : Ori} {q : Quat} (h : o.q = ⟨true, some q⟩) : o.q.read dbg = .ok q := by
  simp [h, CItem.read, CItem.isSet, dbg]

theorem toQuaternion_q {o : Ori} {q : Quat} {r : Quat × Ori} (hq : o.q = ⟨true, some q⟩) (h : o.toQuaternion = .ok r) : r.1 = q ∧ r.2.q = o.q := by
  simp only [toQuaternion, fillQuaternion, set_of_q hq, if_true, Res.bind_eq_ok] at h
  obtain ⟨_, -, o', h1, q', h3, h2⟩ := h
  cases h1
  cases h2
  exact ⟨Res.ok.inj (h3.symm.trans (read_of_q hq)), rfl⟩

theorem toVector4_q {o : Ori} {q : Quat} {r : (Fin 4 → ℝ) × Ori} (hq : o.q = ⟨true, some q⟩) (h : o.toVector4 = .ok r) :
    r.1 = ![q.x, q.y, q.z, q.w] ∧ r.2.q = o.q := by
  simp only [toVector4, Res.bind_eq_ok] at h
  obtain ⟨s, h1, h2⟩ := h
  cases h2
  obtain ⟨e, e'⟩ := toQuaternion_q hq h1
  exact ⟨by rw [e], e'⟩

theorem inverse_q {o r : Ori} {q : Quat} (hq : o.q = ⟨true, some q⟩) (h : o.inverse = .ok r) : r.q = ⟨true, some q.inverse⟩ := by
  simp only [inverse, set_of_q hq, if_true, Res.bind_eq_ok] at h
  obtain ⟨_, -, q', h1, h2⟩ := h
  obtain rfl := Res.ok.inj (h1.symm.trans (read_of_q hq))
  split_ifs at h2
  · simp only [Res.bind_eq_ok] at h2
    obtain ⟨m, -, h2⟩ := h2
    cases h2; rfl
  · cases h2; rfl

theorem product_first {o A B : Ori} {r : Ori × Ori × Ori} (h : o.setToProductNoAlias A B = .ok r) : r.2.1.q = A.q := by
  simp only [setToProductNoAlias, Res.bind_eq_ok] at h
  obtain ⟨_, -, _, -, h⟩ := h
  split_ifs at h
  all_goals simp only [quaternionToMatrix, Res.bind_eq_ok] at h
  · obtain ⟨_, -, _, -, _, -, h⟩ := h; cases h; rfl
  · obtain ⟨_, ⟨_, -, h1⟩, _, -, h⟩ := h; cases h1; cases h; rfl
  · obtain ⟨_, -, _, -, h⟩ := h; cases h; rfl
  · obtain ⟨_, -, _, -, h⟩ := h; cases h; rfl

theorem product_q {o A B : Ori} {a b : Quat} {r : Ori × Ori × Ori} (hA : A.q = ⟨true, some a⟩) (hB : B.q = ⟨true, some b⟩)
    (h : o.setToProductNoAlias A B = .ok r) : r.1.q = ⟨true, some (a * b)⟩ ∧ r.2.2.q = B.q := by
  simp only [setToProductNoAlias, set_of_q hA, set_of_q hB, Bool.and_self, if_true, Res.bind_eq_ok] at h
  obtain ⟨_, -, _, -, m, -, a', h1, b', h2, h⟩ := h
  obtain rfl := Res.ok.inj (h1.symm.trans (read_of_q hA))
  obtain rfl := Res.ok.inj (h2.symm.trans (read_of_q hB))
  cases h
  exact ⟨rfl, rfl⟩

/-! When the second operand holds no quaternion, the result holds none. -/

theorem unset_of {o : Ori} (h : o.q.flag = false) : o.isQuaternionSet = false := by
  simp [isQuaternionSet, h, CItem.isSet, dbg, CheckCfg.doCheck]

theorem product_nq {o A B : Ori} {r : Ori × Ori × Ori} (hB : B.q.flag = false) (h : o.setToProductNoAlias A B = .ok r) : r.1.q.flag = false ∧ r.2.2.q.flag = false := by
  simp only [setToProductNoAlias, unset_of hB, Bool.and_false, Res.bind_eq_ok] at h
  obtain ⟨_, -, _, -, h⟩ := h
  rw [if_neg (by simp)] at h
  split_ifs at h
  all_goals simp only [quaternionToMatrix, Res.bind_eq_ok] at h
  · obtain ⟨_, ⟨_, -, h1⟩, _, -, h⟩ := h; cases h1; cases h; exact ⟨rfl, hB⟩
  · obtain ⟨_, -, _, ⟨_, -, h1⟩, h⟩ := h; cases h1; cases h; exact ⟨rfl, hB⟩
  · obtain ⟨_, -, _, -, h⟩ := h; cases h; exact ⟨rfl, hB⟩

theorem inverse_nq {o r : Ori} (hq : o.q.flag = false) (h : o.inverse = .ok r) : r.q.flag = false := by
  simp only [inverse, unset_of hq, Res.bind_eq_ok] at h
  obtain ⟨_, -, h⟩ := h
  rw [if_neg (by simp)] at h
  simp only [Res.bind_eq_ok] at h
  obtain ⟨_, -, h⟩ := h
  cases h; rfl

/-- The quaternion computed from the matrix. -/
theorem toQuaternion_nq {o : Ori} {R : M3} {r : Quat × Ori} (hq : o.q.flag = false) (hR : o.Rep R) (h : o.toQuaternion = .ok r) : r.1 = Quat.ofMat R := by
  rcases hR.cases with ⟨q, mv, rfl, -⟩ | ⟨qv, rfl, -⟩ | ⟨q, rfl, -⟩
  · cases hq
  · simp [toQuaternion, check, fillQuaternion, isQuaternionSet, isMatrixSet, matrixToQuaternion, CItem.isSet, CItem.read, CItem.assign, dbg, CheckCfg.doCheck, Res.assert,
      Res.ok_bind] at h
    rw [← h]
  · cases hq

theorem integrate_q {o r : Ori} {q : Quat} {v : V3} (hq : o.q = ⟨true, some q⟩) (h : o.integrate v = .ok r) :
    r.q = ⟨true, some (rotationVectorToQuaternion v * q)⟩ := by
  simp only [integrate, set_of_q hq, if_true, Res.bind_eq_ok] at h
  obtain ⟨_, -, q', h1, h2⟩ := h
  obtain rfl := Res.ok.inj (h1.symm.trans (read_of_q hq))
  split_ifs at h2
  · simp only [Res.bind_eq_ok] at h2
    obtain ⟨m, -, h2⟩ := h2
    cases h2; rfl
  · cases h2; rfl

end StateObs.Kine.Ori

namespace StateObs.Kine.Kin
open StateObs Matrix Rot Kine

theorem productLinAcc_q {k k1 k2 : Kin} {x xd s : V3} {c : Kin × Kin} (h : productLinAcc k k1 k2 x xd s = .ok c) : c.2.ori.q = k1.ori.q := by
  unfold productLinAcc at h
  split_ifs at h
  · simp only [Res.bind_eq_ok] at h
    obtain ⟨_, -, r, h1, _, -, _, -, _, -, h⟩ := h
    cases h
    exact Ori.rotate_q h1
  · cases h; rfl

theorem productLinVel_q {k k1 k2 : Kin} {x : V3} {c : Kin × Kin} (h : productLinVel k k1 k2 x = .ok c) : c.2.ori.q = k1.ori.q := by
  unfold productLinVel at h
  split_ifs at h
  · simp only [Res.bind_eq_ok] at h
    obtain ⟨_, -, r, h1, _, -, d, h2, _, -, h⟩ := h
    cases h
    exact (productLinAcc_q h2).trans (Ori.rotate_q h1)
  · cases h; rfl

theorem productLin_q {k k1 k2 : Kin} {c : Kin × Kin} (h : productLin k k1 k2 = .ok c) : c.2.ori.q = k1.ori.q := by
  unfold productLin at h
  split_ifs at h
  · simp only [Res.bind_eq_ok] at h
    obtain ⟨_, -, r, h1, d, h2, _, -, h⟩ := h
    cases h
    exact (productLinVel_q h2).trans (Ori.rotate_q h1)
  · cases h; rfl

theorem productAngAcc_q {k k1 k2 : Kin} {x : V3} {c : Kin × Kin} (h : productAngAcc k k1 k2 x = .ok c) : c.1.ori = k.ori ∧ c.2.ori.q = k1.ori.q := by
  unfold productAngAcc at h
  split_ifs at h
  · simp only [Res.bind_eq_ok] at h
    obtain ⟨_, -, r, h1, _, -, _, -, h⟩ := h
    cases h
    exact ⟨rfl, Ori.rotate_q h1⟩
  · cases h; exact ⟨rfl, rfl⟩

theorem productAngVel_q {k k1 k2 : Kin} {c : Kin × Kin} (h : productAngVel k k1 k2 = .ok c) : c.1.ori = k.ori ∧ c.2.ori.q = k1.ori.q := by
  unfold productAngVel at h
  split_ifs at h
  · simp only [Res.bind_eq_ok] at h
    obtain ⟨_, -, r, h1, d, h2, _, -, h⟩ := h
    cases h
    exact ⟨(productAngAcc_q h2).1, (productAngAcc_q h2).2.trans (Ori.rotate_q h1)⟩
  · cases h; exact ⟨rfl, rfl⟩

theorem product_first {k k1 k2 : Kin} {r : Kin × Kin × Kin} (h : setToProductNoAlias k k1 k2 = .ok r) : r.2.1.ori.q = k1.ori.q := by
  simp only [setToProductNoAlias, productAng, Res.bind_eq_ok] at h
  obtain ⟨_, -, _, -, c, h1, h⟩ := h
  split_ifs at h
  · simp only [Res.bind_eq_ok] at h
    obtain ⟨s, h2, d, h3, h⟩ := h
    cases h
    exact (productAngVel_q h3).2.trans ((Ori.product_first h2).trans (productLin_q h1))
  · cases h; exact productLin_q h1

theorem product_q {k k1 k2 : Kin} {a b : Quat} {r : Kin × Kin × Kin} (ha : k1.ori.q = ⟨true, some a⟩) (hb : k2.ori.q = ⟨true, some b⟩)
    (h : setToProductNoAlias k k1 k2 = .ok r) : r.1.ori.q = ⟨true, some (a * b)⟩ ∧ r.2.2.ori.q = k2.ori.q := by
  have hs : k2.ori.isSet = true := by simp [Ori.isSet, Ori.set_of_q hb]
  simp only [setToProductNoAlias, productAng, hs, if_true, Res.bind_eq_ok] at h
  obtain ⟨_, -, _, -, c, h1, s, h2, d, h3, h⟩ := h
  cases h
  obtain ⟨e1, e2⟩ := Ori.product_q ((productLin_q h1).trans ha) hb h2
  exact ⟨by rw [(productAngVel_q h3).1]; exact e1, e2⟩

theorem product_nq {k k1 k2 : Kin} {r : Kin × Kin × Kin} (hs : k2.ori.isSet = true) (hb : k2.ori.q.flag = false)
    (h : setToProductNoAlias k k1 k2 = .ok r) : r.1.ori.q.flag = false ∧ r.2.2.ori.q.flag = false := by
  simp only [setToProductNoAlias, productAng, hs, if_true, Res.bind_eq_ok] at h
  obtain ⟨_, -, _, -, c, h1, s, h2, d, h3, h⟩ := h
  cases h
  obtain ⟨e1, e2⟩ := Ori.product_nq hb h2
  exact ⟨by rw [(productAngVel_q h3).1]; exact e1, e2⟩

theorem inverseAng_q {k i r : Kin} (h : inverseAng k i = .ok r) : r.ori.q = i.ori.q := by
  unfold inverseAng at h
  split_ifs at h
  · simp only [Res.bind_eq_ok, inverseAngAcc] at h
    obtain ⟨_, -, s, h1, h⟩ := h
    split_ifs at h
    · simp only [Res.bind_eq_ok] at h
      obtain ⟨_, -, t, h2, h⟩ := h
      cases h
      exact (Ori.rotate_q h2).trans (Ori.rotate_q h1)
    · cases h; exact Ori.rotate_q h1
  · cases h; rfl

theorem inverseLin_q {k i r : Kin} (h : inverseLin k i = .ok r) : r.ori.q = i.ori.q := by
  unfold inverseLin at h
  split_ifs at h
  · simp only [Res.bind_eq_ok, inverseLinVel] at h
    obtain ⟨_, -, s, h1, h⟩ := h
    split_ifs at h
    · simp only [Res.bind_eq_ok, inverseLinAcc] at h
      obtain ⟨_, -, _, -, t, h2, h⟩ := h
      split_ifs at h
      · simp only [Res.bind_eq_ok] at h
        obtain ⟨_, -, _, -, u, h3, h⟩ := h
        cases h
        exact (Ori.rotate_q h3).trans ((Ori.rotate_q h2).trans (Ori.rotate_q h1))
      · cases h; exact (Ori.rotate_q h2).trans (Ori.rotate_q h1)
    · cases h; exact Ori.rotate_q h1
  · cases h; rfl

theorem getInverse_q {k r : Kin} {q : Quat} (hq : k.ori.q = ⟨true, some q⟩) (h : k.getInverse = .ok r) : r.ori.q = ⟨true, some q.inverse⟩ := by
  simp only [getInverse, Res.bind_eq_ok] at h
  obtain ⟨_, -, o, h1, i, h2, h⟩ := h
  rw [inverseLin_q h, inverseAng_q h2]
  exact Ori.inverse_q hq h1

theorem getInverse_nq {k r : Kin} (hq : k.ori.q.flag = false) (h : k.getInverse = .ok r) : r.ori.q.flag = false := by
  simp only [getInverse, Res.bind_eq_ok] at h
  obtain ⟨_, -, o, h1, i, h2, h⟩ := h
  rw [inverseLin_q h, inverseAng_q h2]
  exact Ori.inverse_nq hq h1

theorem integrateLin_q {k r : Kin} {dt : ℝ} (h : k.integrateLin dt = .ok r) : r.ori = k.ori := by
  unfold integrateLin at h
  split_ifs at h
  · simp only [Res.bind_eq_ok] at h
    obtain ⟨_, -, _, -, _, -, h⟩ := h
    cases h; rfl
  · simp only [Res.bind_eq_ok] at h
    obtain ⟨_, -, _, -, h⟩ := h
    cases h; rfl
  · cases h; rfl

theorem integrate_q {k r : Kin} {dt : ℝ} {q : Quat} {w b : V3} (hq : k.ori.q = ⟨true, some q⟩) (hw : k.angVel = ⟨true, some w⟩) (hb : k.angAcc = ⟨true, some b⟩)
    (h : k.integrate dt = .ok r) : r.ori.q = ⟨true, some (rotationVectorToQuaternion (dt • w + (dt * dt / 2) • b) * q)⟩ := by
  have hs : k.ori.isSet = true := by simp [Ori.isSet, Ori.set_of_q hq]
  simp only [integrate, integrateAng, integrateOri, hs, hw, hb, CItem.isSet, dbg, CheckCfg.doCheck, CItem.read, Res.bind_eq_ok] at h
  obtain ⟨k1, h1, h2⟩ := h
  rw [integrateLin_q h2]
  simp [Res.bind_eq_ok] at h1
  obtain ⟨o, h3, rfl⟩ := h1
  exact Ori.integrate_q hq h3

end StateObs.Kine.Kin

namespace StateObs.KO
open StateObs Matrix Rot Kine
open Observer

theorem computeAccelerations_q {o : Observer} {k : Kin} {F M : V3} {r : V3 × V3 × Kin} (h : o.computeAccelerations k F M = .ok r) : r.2.2.ori.q = k.ori.q := by
  simp only [computeAccelerations, Res.bind_eq_ok] at h
  obtain ⟨R, h1, _, -, b, -, h⟩ := h
  split_ifs at h
  simp only [Res.bind_eq_ok] at h
  obtain ⟨_, h2, _, h3, h⟩ := h
  cases h
  exact (Ori.rotate_q h3).trans ((Ori.rotate_q h2).trans (Ori.toMatrix3_q h1))

end StateObs.KO
