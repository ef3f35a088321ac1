import Verif.KO.ImuLemmas
import Verif.KO.ClientProps
import Verif.KO.NewtonFalse
/-!
# The kinematics of the IMUs of the kinetics observer (C57, C76)
-/

namespace StateObs.KO
open StateObs Matrix Rot Kine KF Observer

variable {nc ni : ℕ} {o o' : Observer}

/-- **C76** fails: once `setIMU` has been called for an IMU, no later call for this IMU with a pose returns if it gives no linear velocity, no angular velocity or
no linear acceleration, whatever happens in between (`resetInputs` excepted). The elapsed time by which the differences are divided is computed as
`k_data_ - k_data_`. -/
theorem C76_false {l1 l2 : List Op} {a g a' g' : V3} {cov cov' : Option (M3 × M3)} {k k' : Kin} {n : ℕ} {b : Value} (h : Observer.construct nc ni = .ok o)
    (hr : .resetInputs ∉ l2) (hk : k'.Has b) (hp : b.pos ≠ none) (ho : b.ori ≠ none) (hv : b.linVel = none ∨ b.angVel = none ∨ b.linAcc = none) :
    ∀ o', Op.run o (l1 ++ .setIMU a g cov k n :: l2 ++ [.setIMU a' g' cov' k' n]) ≠ .ok o' := by
  intro o' e
  rw [List.append_assoc, run_append] at e
  obtain ⟨o1, e1, e⟩ := e
  rw [List.cons_append, run_cons] at e
  obtain ⟨o2, e2, e⟩ := e
  obtain ⟨o3, e3, e4⟩ := run_append.1 e
  obtain ⟨o4, e4, -⟩ := run_cons.1 e4
  have i1 := inv_run l1 o (inv_construct h) o1 e1
  have i2 := inv_exec _ i1 e2
  simp only [Op.exec, Res.bind_eq_ok] at e2 e4
  obtain ⟨⟨n2, o2'⟩, e2, e⟩ := e2
  cases e
  obtain ⟨⟨n4, o4'⟩, e4, e⟩ := e4
  cases e
  have en : ∀ {o : Observer} {j : ℕ}, o.imuNumber (n : Int) = .ok j → j = n := by
    intro o j hj
    rw [imuNumber, if_neg (by omega)] at hj
    simpa using (Res.ok.inj hj).symm
  obtain ⟨m2, -, -, -, h1, -⟩ := setIMU_eq e2
  obtain rfl := en h1
  obtain ⟨m, hm, ht, mp, mo⟩ := (used_setIMU i1 e2).run l2 _ i2 hr o3 e3
  obtain ⟨m4, kin, -, -, h1, h2, h3, -⟩ := setIMU_eq e4
  obtain rfl := en h1
  obtain ⟨-, h5, -⟩ := selectIMU_ok h2
  rw [start_imus, hm] at h5
  cases h5
  obtain ⟨s1, s2, s3, s4, s5, s6⟩ := has_isSet hk
  have hb : ∀ {α : Type} {x : Option α}, x ≠ none → x.isSome = true := fun h => Option.isSome_iff_ne_none.2 h
  rw [newIMUKin, if_neg ht, sub_self, Int.cast_zero, mul_zero, updateKin_still mp mo (by rw [s1]; exact hb hp) (by rw [s2]; exact hb ho)
    (by rw [s3, s4, s5]; rcases hv with h | h | h <;> simp [h])] at h3
  cases h3

/-- `setIMU` once the kinematics are known. -/
theorem setIMU_live {a g : V3} {cov : Option (M3 × M3)} {k kin : Kin} {n : ℕ} {m : IMU} (hi : Inv nc ni o) (hm : o.imus[n]? = some m)
    (hf : m.time < o.startNewIteration.kData) (hk : o.startNewIteration.newIMUKin m k = .ok kin) :
    ∃ o', o.setIMU a g cov k n = .ok (n, o') ∧ o'.kData = o.startNewIteration.kData ∧
      ∃ m', o'.imus[n]? = some m' ∧ m'.time = o'.kData ∧ m'.kin = kin ∧ m'.signal = some ![a 0, a 1, a 2, g 0, g 1, g 2] := by
  have hl : n < o.imus.length := by
    by_contra hh
    rw [List.getElem?_eq_none (by omega)] at hm
    cases hm
  have hn : n < ni := by rw [← hi.2.imuLen]; exact hl
  have hnum : o.startNewIteration.imuNumber n = .ok n := by rw [imuNumber, if_neg (by omega)]; simp
  have hsel : o.startNewIteration.selectIMU n = .ok m := by
    have e1 : decide (n < o.startNewIteration.maxIMU) = true := by rw [start_maxIMU, hi.1.2]; simpa using hn
    have e2 : decide (m.time < o.startNewIteration.kData) = true := by simpa using hf
    rw [selectIMU, e1, start_imus, hm]
    simp only [Res.assert, rd, Res.ok_bind, e2, if_true]
  have e0 : ∀ p : Option M3 × Option M3, (match (generalizing := false) cov with
    | some (a, g) => (some a, some g)
    | none => if m.time = 0 then (some o.startNewIteration.accCov, some o.startNewIteration.gyroCov) else (m.covAcc, m.covGyro)) = p →
    o.setIMU a g cov k n = .ok (n, { o.startNewIteration with
      imus := o.startNewIteration.imus.set n { m with signal := some (signal6 a g), covAcc := p.1, covGyro := p.2, kin := kin, time := o.startNewIteration.kData }
      nIMU := o.startNewIteration.nIMU + 1 }) := by
    rintro p rfl
    rw [Observer.setIMU]
    simp only [hnum, Res.ok_bind, hsel, hk]
    rfl
  obtain ⟨p, e0⟩ : ∃ p : Option M3 × Option M3, o.setIMU a g cov k n = .ok (n, { o.startNewIteration with
      imus := o.startNewIteration.imus.set n { m with signal := some (signal6 a g), covAcc := p.1, covGyro := p.2, kin := kin, time := o.startNewIteration.kData }
      nIMU := o.startNewIteration.nIMU + 1 }) := ⟨_, e0 _ rfl⟩
  refine ⟨_, e0, rfl, { m with signal := some (signal6 a g), covAcc := p.1, covGyro := p.2, kin := kin, time := o.startNewIteration.kData }, ?_, rfl, rfl, rfl⟩
  show (o.startNewIteration.imus.set n _)[n]? = _
  rw [start_imus, List.getElem?_set_self hl]

/-- **C57**, **C76** when everything is given: in every state, `setIMU` with the number of an IMU that has no data of the current iteration yet and kinematics that give the
pose, the velocities and the linear acceleration returns this number, and the IMU holds the data and these kinematics. -/
theorem C76_complete_partial {l : List Op} (h : Reachable nc ni l o) {a g : V3} {cov : Option (M3 × M3)} {k : Kin} {n : ℕ} {p v w x : V3} {R : M3} {y : Option V3}
    {m : IMU} (hm : o.imus[n]? = some m) (hf : o.kEst = o.kData ∨ m.time < o.kData) (hk : k.Has ⟨some p, some R, some v, some w, some x, y⟩) :
    ∃ o', o.setIMU a g cov k n = .ok (n, o') ∧
      ∃ m', o'.imus[n]? = some m' ∧ m'.time = o'.kData ∧ m'.signal = some ![a 0, a 1, a 2, g 0, g 1, g 2] ∧ ∃ y', m'.kin.Has ⟨some p, some R, some v, some w, some x, y'⟩ := by
  have hi := inv_reachable h
  have hf' : m.time < o.startNewIteration.kData := by
    have := hi.2.imuTime m (List.mem_of_getElem? hm)
    unfold startNewIteration
    split_ifs with hs
    · show m.time < o.kData + 1
      omega
    · rcases hf with hf | hf
      · exact absurd hf hs
      · exact hf
  have hkin : ∃ kin, o.startNewIteration.newIMUKin m k = .ok kin ∧ ∃ y', kin.Has ⟨some p, some R, some v, some w, some x, y'⟩ := by
    obtain ⟨t1, t2, t3, t4, t5, t6⟩ := has_isSet hk
    unfold newIMUKin
    split_ifs with ht
    · refine ⟨k, ?_, y, hk⟩
      simp only [firstIMUKin, orZero, t1, t2, t3, t4, t5, Option.isSome_some, Bool.and_self, Res.assert, if_true, Res.ok_bind]
    · have e1 : k.pos = ⟨true, some p⟩ := hk.pos
      have e2 : k.linVel = ⟨true, some v⟩ := hk.linVel
      have e3 : k.linAcc = ⟨true, some x⟩ := hk.linAcc
      have e4 : k.angVel = ⟨true, some w⟩ := hk.angVel
      refine ⟨⟨⟨true, some p⟩, k.ori, ⟨true, some v⟩, ⟨true, some w⟩, ⟨true, some x⟩, m.kin.angAcc.reset⟩, ?_, none, rfl, hk.ori, rfl, rfl, rfl, rfl⟩
      rw [updateKin, t1, t2, t3, t4, t5]
      simp only [divides, flagsIMUKine, Kin.velMethod, Kin.accMethod, Option.isSome_some, if_true, Res.ok_bind, Bool.false_eq_true, if_false, reduceCtorEq, or_false, decide_false,
        Bool.or_false, and_false]
      simp only [Kin.update, Kin.updateLin, Kin.updateAng, t1, t2, t3, t4, t5, Kin.posMethod, Kin.velMethod, Kin.accMethod, Option.isSome_some, if_true, Res.ok_bind, Bool.false_eq_true, if_false,
        Kin.linAccFirst, Kin.linVelFirst, Kin.linPos, Kin.velSecond, Kin.accSecond, Kin.angAccFirst, Kin.angVelFirst, Kin.angOri, Kin.keep]
      rw [e1, e2, e3, e4]
      rfl
  obtain ⟨kin, e, y', hy⟩ := hkin
  obtain ⟨o', e', -, m', q1, q2, q3, q4⟩ := setIMU_live (a := a) (g := g) (cov := cov) hi hm hf' e
  exact ⟨o', e', m', q1, q2, q4, y', by rw [q3]; exact hy⟩

/-- The IMU `n` has never been used. -/
def Unused (n : ℕ) (o : Observer) : Prop := ∃ m, o.imus[n]? = some m ∧ m.time = 0

theorem Unused.run {n : ℕ} : ∀ (l : List Op) (o : Observer), Inv nc ni o → Unused n o → (∀ a g cov k (num : Int), .setIMU a g cov k num ∈ l → num ≠ n) → .resetInputs ∉ l →
    ∀ o', Op.run o l = .ok o' → Unused n o' := by
  intro l
  induction l with
  | nil => intro o _ hc _ _ o' e; cases e; exact hc
  | cons op l ih =>
    rintro o hi ⟨m, hm, ht⟩ h1 n1 o' e
    obtain ⟨o1, e1, e2⟩ := run_cons.1 e
    simp only [List.mem_cons, not_or] at n1
    refine ih o1 (inv_exec op hi e1) ?_ (fun a g cov k num hh => h1 a g cov k num (List.mem_cons_of_mem _ hh)) n1.2 o' e2
    by_cases hs : ∃ a g cov k num, op = .setIMU a g cov k num
    · obtain ⟨a, g, cov, k, num, rfl⟩ := hs
      have hnum := h1 a g cov k num List.mem_cons_self
      simp only [Op.exec, Res.bind_eq_ok] at e1
      obtain ⟨⟨j, o2⟩, e1, e3⟩ := e1
      cases e3
      have hneg : ¬ num < 0 := fun hneg => setIMU_auto hi a g cov k hneg _ e1
      obtain ⟨m', kin, c1, c2, h4, -, -, -, rfl⟩ := setIMU_eq e1
      rw [imuNumber, if_neg hneg] at h4
      have h4 := Res.ok.inj h4
      exact ⟨m, by rw [List.getElem?_set_ne (by omega)]; exact hm, ht⟩
    · obtain ⟨j, hj⟩ := imu_get hm (imus_exec (fun a g cov k num hh => hs ⟨a, g, cov, k, num, hh⟩) (Ne.symm n1.1) e1)
      exact ⟨_, hj, ht⟩

/-- **C57**, **C76** the first time: `setIMU` for an IMU that has never been given, with a pose, returns. The velocities and the linear acceleration that are not given
are null. -/
theorem C76_first_partial {l : List Op} (h : Reachable nc ni l o) {a g : V3} {cov : Option (M3 × M3)} {k : Kin} {n : ℕ} {p : V3} {R : M3} {v w x y : Option V3}
    (hn : n < ni) (hl : ∀ a g cov k (num : Int), .setIMU a g cov k num ∈ l → num ≠ n) (hl' : .resetInputs ∉ l) (hk : k.Has ⟨some p, some R, v, w, x, y⟩) :
    ∃ o', o.setIMU a g cov k n = .ok (n, o') ∧
      ∃ m', o'.imus[n]? = some m' ∧ m'.time = o'.kData ∧ m'.signal = some ![a 0, a 1, a 2, g 0, g 1, g 2] ∧
        m'.kin.Has ⟨some p, some R, some (v.getD 0), some (w.getD 0), some (x.getD 0), y⟩ := by
  have hi := inv_reachable h
  obtain ⟨m, hm, ht⟩ : Unused n o := by
    obtain ⟨o0, h0, hr⟩ := h
    refine Unused.run l o0 (inv_construct h0) ?_ hl hl' o hr
    obtain ⟨e, k, hc, -⟩ := construct_kin (nc := nc) (construct_pos h0)
    rw [h0] at hc
    cases hc
    exact ⟨_, List.getElem?_replicate.trans (if_pos hn), rfl⟩
  have hz : ∀ (i : CItem V3) (v : Option V3), Item i v → Item (orZero i) (some (v.getD 0)) := by
    intro i v h
    cases v with
    | none => rw [orZero, if_neg (by rw [h.isSet]; simp)]; rfl
    | some w => rw [orZero, if_pos (by rw [h.isSet]; rfl)]; exact h
  obtain ⟨t1, t2, t3, t4, t5, t6⟩ := has_isSet hk
  obtain ⟨o', e', -, m', q1, q2, q3, q4⟩ := setIMU_live (a := a) (g := g) (cov := cov) (k := k)
    (kin := { k with linVel := orZero k.linVel, angVel := orZero k.angVel, linAcc := orZero k.linAcc }) hi hm (by have := start_pos hi; omega) (by
      rw [newIMUKin, if_pos ht]
      simp only [firstIMUKin, t1, t2, Option.isSome_some, Bool.and_self, Res.assert, if_true, Res.ok_bind])
  exact ⟨o', e', m', q1, q2, q4, by rw [q3]; exact ⟨hk.pos, hk.ori, hz _ _ hk.linVel, hz _ _ hk.angVel, hz _ _ hk.linAcc, hk.angAcc⟩⟩

/-! ## Cases -/

/-- A frame at the origin, without velocities. -/
def poseOnly : Kin := ⟨⟨true, some 0⟩, ⟨⟨true, some ⟨1, 0, 0, 0⟩⟩, ⟨false, none⟩⟩, ⟨false, none⟩, ⟨false, none⟩, ⟨false, none⟩, ⟨false, none⟩⟩

theorem poseOnly_has : poseOnly.Has ⟨some 0, some (Quat.toMat ⟨1, 0, 0, 0⟩), none, none, none, none⟩ :=
  ⟨rfl, Ori.rep_q (by simp [Quat.normSq]) rfl, rfl, rfl, rfl, rfl⟩

/-- The IMU of the example of C84 is given without velocities at the beginning of the second iteration. -/
theorem C76_example (hnc : 0 < nc) (hni : 0 < ni) : ∃ o o1, Observer.construct nc ni = .ok o ∧
    Op.run o (exampleStart nc ni ++ exampleIteration) = .ok o1 ∧
      ∀ o', Op.run o (exampleStart nc ni ++ exampleIteration ++ [.setIMU ![0, 0, 9.8] 0 none poseOnly 0]) ≠ .ok o' := by
  obtain ⟨o, h⟩ := (C53_constructible nc ni).2 hni
  obtain ⟨c, hr, -⟩ := example_between (nc := nc) hnc hni 1
  obtain ⟨o1, e1, hs⟩ := (Sim.new h).run hr
  refine ⟨o, o1, h, by simpa using e1, fun o' e => ?_⟩
  exact C76_false (n := 0) (l1 := exampleStart nc ni) (l2 := [.updateContactWithNoSensor atRest 0, .update]) h (by simp) poseOnly_has (by simp) (by simp) (Or.inl rfl) o'
    (by simp only [exampleIteration, List.append_assoc, List.cons_append, List.nil_append] at e ⊢; exact e)

end StateObs.KO
