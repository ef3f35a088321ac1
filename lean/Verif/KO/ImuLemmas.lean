import Verif.KO.MeasLemmas
import Verif.KO.LiveOps
/-!
# Lemmas: the kinematics of the IMUs of the kinetics observer
-/

namespace StateObs.KO
open StateObs Matrix Rot Kine KF Observer

variable {nc ni : ℕ} {o o' : Observer}

theorem citem_isSet {α : Type} (i : CItem α) : i.isSet dbg = i.flag := by simp [CItem.isSet, dbg, CheckCfg.doCheck]

theorem updateLin_pos {fv fa : Bool} {p v a np nv na : CItem V3} {dt : ℝ} {r : CItem V3 × CItem V3 × CItem V3}
    (h : Kin.updateLin true fv fa p v a np nv na dt = .ok r) : r.1.isSet dbg = true := by
  simp only [Kin.updateLin, Res.bind_eq_ok] at h
  obtain ⟨pm, e1, vm, -, am, -, a1, -, va, -, p1, e2, v1, -, a2, -, e3⟩ := h
  cases e3
  simp only [Kin.keep, if_true]
  simp only [Kin.posMethod, if_true] at e1
  split_ifs at e1 with h1 h2 h3 h4 h5 <;> cases e1 <;> simp only [Kin.linPos, Res.bind_eq_ok] at e2
  · cases e2
    rw [citem_isSet] at h1 ⊢
    simpa [CItem.copyFrom, dbg, CheckCfg.doCheck] using h1
  · obtain ⟨_, -, _, -, _, -, e2⟩ := e2
    cases e2; rw [citem_isSet]; rfl
  · obtain ⟨_, -, _, -, e2⟩ := e2
    cases e2; rw [citem_isSet]; rfl
  · obtain ⟨_, -, _, -, e2⟩ := e2
    cases e2; rw [citem_isSet]; rfl
  · cases e2
    simpa using h2

theorem integrate_isSet {p p' : Ori} {v : V3} (h : p.integrate v = .ok p') : p'.isSet = true := by
  simp only [Ori.integrate, Res.bind_eq_ok] at h
  obtain ⟨_, -, h⟩ := h
  split_ifs at h with h1 h2 <;> simp only [Res.bind_eq_ok] at h
  · obtain ⟨_, -, _, -, h⟩ := h
    cases h; simp [Ori.isSet, Ori.isQuaternionSet, Ori.isMatrixSet, citem_isSet, CItem.assign]
  · obtain ⟨_, -, h⟩ := h
    cases h; simp [Ori.isSet, Ori.isQuaternionSet, Ori.isMatrixSet, citem_isSet, CItem.assign]
  · obtain ⟨_, -, h⟩ := h
    cases h; simp [Ori.isSet, Ori.isQuaternionSet, Ori.isMatrixSet, citem_isSet, CItem.assign]

theorem updateAng_ori {fv fa : Bool} {p : Ori} {v a : CItem V3} {np : Ori} {nv na : CItem V3} {dt : ℝ} {r : Ori × CItem V3 × CItem V3}
    (h : Kin.updateAng true fv fa p v a np nv na dt = .ok r) : r.1.isSet = true := by
  simp only [Kin.updateAng, Res.bind_eq_ok] at h
  obtain ⟨pm, e1, vm, -, am, -, a1, -, va, -, p1, e2, v1, -, a2, -, e3⟩ := h
  cases e3
  simp only [if_true]
  simp only [Kin.posMethod, if_true] at e1
  split_ifs at e1 with h1 h2 h3 h4 h5 <;> cases e1 <;> simp only [Kin.angOri, Res.bind_eq_ok] at e2
  · cases e2
    exact h1
  · obtain ⟨_, -, _, -, e2⟩ := e2
    exact integrate_isSet e2
  · obtain ⟨_, -, e2⟩ := e2
    exact integrate_isSet e2
  · obtain ⟨_, -, e2⟩ := e2
    exact integrate_isSet e2
  · cases e2
    simpa using h2

/-- An update with the flags of the IMUs leaves a pose. -/
theorem updateKin_pose {k n k' : Kin} {dt : ℝ} (h : updateKin k n dt flagsIMUKine = .ok k') : k'.pos.isSet dbg = true ∧ k'.ori.isSet = true := by
  simp only [updateKin, Res.bind_eq_ok] at h
  obtain ⟨l, -, a, -, h⟩ := h
  split_ifs at h
  simp only [Kin.update, flagsIMUKine, Res.bind_eq_ok] at h
  obtain ⟨r1, e1, r2, e2, h⟩ := h
  cases h
  exact ⟨updateLin_pos e1, updateAng_ori e2⟩

/-- Without elapsed time, an update of a pose by a pose without a velocity or the linear acceleration divides by zero. -/
theorem updateKin_still {k n : Kin} (hp : k.pos.isSet dbg = true) (ho : k.ori.isSet = true) (hnp : n.pos.isSet dbg = true) (hno : n.ori.isSet = true)
    (hn : n.linVel.isSet dbg = false ∨ n.angVel.isSet dbg = false ∨ n.linAcc.isSet dbg = false) : updateKin k n 0 flagsIMUKine = .ub := by
  rw [updateKin, hp, ho, hnp, hno]
  generalize k.linVel.isSet dbg = b1
  generalize k.linAcc.isSet dbg = b2
  generalize k.angVel.isSet dbg = b3
  generalize k.angAcc.isSet dbg = b4
  generalize n.angAcc.isSet dbg = b5
  generalize n.linVel.isSet dbg = c1 at *
  generalize n.angVel.isSet dbg = c2 at *
  generalize n.linAcc.isSet dbg = c3 at *
  have e : ∃ l a, divides true true true b1 b2 true c1 c3 = .ok l ∧ divides true false true b3 b4 true c2 b5 = .ok a ∧ (l || a) = true := by
    revert hn
    cases b1 <;> cases b2 <;> cases c1 <;> cases c2 <;> cases c3 <;> simp [divides, Kin.velMethod, Kin.accMethod]
  obtain ⟨l, a, e1, e2, e3⟩ := e
  simp only [flagsIMUKine]
  rw [e1, Res.ok_bind, e2, Res.ok_bind, if_pos ⟨by trivial, e3⟩]

/-- The kinematics of the IMU `n` has been given. -/
def Used (n : ℕ) (o : Observer) : Prop := ∃ m, o.imus[n]? = some m ∧ m.time ≠ 0 ∧ m.kin.pos.isSet dbg = true ∧ m.kin.ori.isSet = true

theorem newIMUKin_pose {m : IMU} {k k' : Kin} (h : o.newIMUKin m k = .ok k') : k'.pos.isSet dbg = true ∧ k'.ori.isSet = true := by
  unfold newIMUKin at h
  split_ifs at h
  · simp only [firstIMUKin, Res.bind_eq_ok] at h
    obtain ⟨_, h1, h2⟩ := h
    cases h2
    simpa using Res.assert_ok h1
  · exact updateKin_pose h

theorem imus_exec {op : Op} (h1 : ∀ a g cov k num, op ≠ .setIMU a g cov k num) (h2 : op ≠ .resetInputs) (e : Op.exec o op = .ok o') :
    List.Forall₂ (fun m m' => ∃ j, m' = { m with measIndex := j }) o.imus o'.imus := by
  have hr : ∀ l : List IMU, List.Forall₂ (fun m m' => ∃ j, m' = { m with measIndex := j }) l l := by
    intro l
    induction l with
    | nil => exact .nil
    | cons a l ih => exact .cons ⟨a.measIndex, rfl⟩ ih
  have key : o'.imus = o.imus → List.Forall₂ (fun m m' => ∃ j, m' = { m with measIndex := j }) o.imus o'.imus := fun h => by rw [h]; exact hr _
  by_cases hd : op.isData = true
  · have eb := congrArg Book.imus (book_data op hd e)
    simp only [Observer.book, start_imus] at eb
    exact key eb
  by_cases hn : op.isSensor = false
  · exact key (congrArg Book.imus (book_inner op (by simpa using hd) hn e))
  cases op <;> simp [Op.isSensor] at hn
  case update =>
    by_cases hk : o.kEst = o.kData
    · simp [Op.exec, Observer.update, hk] at e
      subst e
      exact hr _
    · obtain ⟨imus, contacts, h2, -, eb⟩ := book_update e hk
      have eb := congrArg Book.imus eb
      simp only [Observer.book] at eb
      rw [eb]; exact h2
  case clearContacts => cases e; exact hr _
  case resetInputs => exact absurd rfl h2
  case removeContact j =>
    obtain ⟨c', -, hc1, hc2, rfl⟩ := removeContact_eq e
    exact hr _
  case setAbsolutePoseSensor => cases e; exact key start_imus
  case setIMU a g cov k num => exact absurd rfl (h1 a g cov k num)
  case updateContactWithWrenchSensor w cov k j =>
    obtain ⟨c', kin, sc, -, -, -, -, -, rfl⟩ := updateContactWithWrenchSensor_eq e
    exact key start_imus
  case updateContactWithNoSensor k j =>
    obtain ⟨c', kin, -, hc', -, -, rfl⟩ := updateContactWithNoSensor_eq e
    exact key start_imus
  case addContact pose cov num v =>
    simp only [Op.exec, Res.bind_eq_ok] at e
    obtain ⟨⟨j, o1⟩, e1, e2⟩ := e
    cases e2
    obtain ⟨c', c'', x, e, -, -, hc', -, -, -, hw', rfl⟩ := addContact_eq e1
    exact hr _

theorem imu_get {n : ℕ} {m : IMU} (hm : o.imus[n]? = some m) (h : List.Forall₂ (fun m m' => ∃ j, m' = { m with measIndex := j }) o.imus o'.imus) :
    ∃ j, o'.imus[n]? = some { m with measIndex := j } := by
  have hl := h.length_eq
  have hn : n < o.imus.length := by
    by_contra hh
    rw [List.getElem?_eq_none (by omega)] at hm
    cases hm
  obtain ⟨m', hm'⟩ : ∃ m', o'.imus[n]? = some m' := ⟨_, List.getElem?_eq_getElem (by omega)⟩
  obtain ⟨m0, h0, j, rfl⟩ := forall₂_get h n m' hm'
  rw [hm] at h0
  cases h0
  exact ⟨j, hm'⟩

theorem selectIMU_ok {n : ℕ} {m : IMU} (h : o.selectIMU n = .ok m) : n < o.maxIMU ∧ o.imus[n]? = some m ∧ m.time < o.kData := by
  simp only [selectIMU, Res.bind_eq_ok] at h
  obtain ⟨_, ha, m', hm, _, hb, h2⟩ := h
  cases h2
  exact ⟨by simpa using Res.assert_ok ha, rd_ok hm, by simpa using Res.assert_ok hb⟩

theorem start_pos (hi : Inv nc ni o) : 0 < o.startNewIteration.kData := by
  have h1 := hi.2.time
  have h2 := hi.2.time0
  unfold startNewIteration
  split_ifs with h
  · show 0 < o.kData + 1
    omega
  · omega

/-- After `setIMU`, the IMU is used. -/
theorem used_setIMU {a g : V3} {cov : Option (M3 × M3)} {k : Kin} {num : Int} {n : ℕ} (hi : Inv nc ni o) (h : o.setIMU a g cov k num = .ok (n, o')) : Used n o' := by
  obtain ⟨m, kin, c1, c2, h1, h2, h3, -, rfl⟩ := setIMU_eq h
  obtain ⟨h4, h5, h6⟩ := selectIMU_ok h2
  rw [start_imus] at h5
  have hl : n < o.imus.length := by
    by_contra hh
    rw [List.getElem?_eq_none (by omega)] at h5
    cases h5
  have := start_pos hi
  exact ⟨_, List.getElem?_set_self hl, by show o.startNewIteration.kData ≠ 0; omega, newIMUKin_pose h3⟩

theorem Used.exec {n : ℕ} (hi : Inv nc ni o) (h : Used n o) {op : Op} (h2 : op ≠ .resetInputs) (e : Op.exec o op = .ok o') : Used n o' := by
  obtain ⟨m, hm, ht, hp, ho⟩ := h
  by_cases h1 : ∃ a g cov k num, op = .setIMU a g cov k num
  · obtain ⟨a, g, cov, k, num, rfl⟩ := h1
    simp only [Op.exec, Res.bind_eq_ok] at e
    obtain ⟨⟨j, o1⟩, e1, e2⟩ := e
    cases e2
    by_cases hj : j = n
    · subst hj
      exact used_setIMU hi e1
    · obtain ⟨m', kin, c1, c2, -, -, -, -, rfl⟩ := setIMU_eq e1
      exact ⟨m, by simpa [List.getElem?_set, hj] using hm, ht, hp, ho⟩
  · obtain ⟨j, hj⟩ := imu_get hm (imus_exec (fun a g cov k num hh => h1 ⟨a, g, cov, k, num, hh⟩) h2 e)
    exact ⟨_, hj, ht, hp, ho⟩

theorem Used.run {n : ℕ} : ∀ (l : List Op) (o : Observer), Inv nc ni o → Used n o → .resetInputs ∉ l → ∀ o', Op.run o l = .ok o' → Used n o' := by
  intro l
  induction l with
  | nil => intro o _ hc _ o' e; cases e; exact hc
  | cons op l ih =>
    rintro o hi hc n1 o' e
    obtain ⟨o1, e1, e2⟩ := run_cons.1 e
    simp only [List.mem_cons, not_or] at n1
    exact ih o1 (inv_exec op hi e1) (hc.exec hi (Ne.symm n1.1) e1) n1.2 o' e2

end StateObs.KO
