import Verif.KO.Frame
import Verif.OutcomeLaws
/-!
# C57, C58, C59: numbering of the IMUs, times, options
-/

namespace StateObs.KO
open StateObs Matrix Rot Kine KF

variable {nc ni : ℕ} {o o' : Observer}

/-! ## C58 -/

/-- The calls that bring data: sensors, contacts and inertial quantities. -/
def Op.BringsData : Op → Prop
  | .setIMU .. | .updateContactWithWrenchSensor .. | .updateContactWithNoSensor .. | .setAbsolutePoseSensor .. | .setInertiaMatrix2 .. | .setInertiaMatrix .. |
    .setInertiaVector2 .. | .setInertiaVector .. | .setCenterOfMass3 .. | .setCenterOfMass2 .. | .setCenterOfMass .. | .setAngularMomentum2 .. |
    .setAngularMomentum .. => True
  | _ => False

namespace Observer

theorem start_kData (hi : Inv nc ni o) : o.startNewIteration.kData = o.kEst + 1 := by
  unfold startNewIteration
  split_ifs with h
  · dsimp only; omega
  · have := hi.2.time; omega

theorem setIMU_eq {a g : V3} {cov : Option (M3 × M3)} {k : Kin} {num : Int} {n : ℕ} (h : o.setIMU a g cov k num = .ok (n, o')) :
    ∃ m kin c1 c2, o.startNewIteration.imuNumber num = .ok n ∧ o.startNewIteration.selectIMU n = .ok m ∧ o.startNewIteration.newIMUKin m k = .ok kin ∧
      (c1, c2) = (match (generalizing := false) cov with
        | some (a, g) => (some a, some g)
        | none => if m.time = 0 then (some o.startNewIteration.accCov, some o.startNewIteration.gyroCov) else (m.covAcc, m.covGyro)) ∧
      o' = { o.startNewIteration with
        imus := o.imus.set n { m with signal := some (signal6 a g), covAcc := c1, covGyro := c2, kin := kin, time := o.startNewIteration.kData }
        nIMU := o.startNewIteration.nIMU + 1 } := by
  simp only [setIMU, Res.bind_eq_ok] at h
  obtain ⟨n', h1, m, h2, kin, h3, h4⟩ := h
  have h5 := Res.ok.inj h4
  obtain rfl : n' = n := congrArg Prod.fst h5
  have h6 := (congrArg Prod.snd h5).symm
  rw [start_imus] at h6
  exact ⟨m, kin, _, _, h1, h2, h3, rfl, h6⟩

theorem updateContactWithWrenchSensor_eq {w : V6} {cov : Option M6} {k : Kin} {n : ℕ} (h : o.updateContactWithWrenchSensor w cov k n = .ok o') :
    ∃ c kin sc, n < o.maxContacts ∧ o.contacts[n]? = some c ∧ c.isSet = true ∧ o.startNewIteration.newContactKin c k = .ok kin ∧
      sc = (match (generalizing := false) cov with
        | some M => c.sensorCov.assign M
        | none => if c.sensorCov.isSet dbg then c.sensorCov else c.sensorCov.assign o.startNewIteration.wrenchCov) ∧
      o' = { o.startNewIteration with
        contacts := o.contacts.set n { c with localKine := kin, wrench := some w, time := o.startNewIteration.kData, sensorCov := sc, withRealSensor := true }
        nReal := if c.withRealSensor then o.startNewIteration.nReal else o.startNewIteration.nReal + 1 } := by
  simp only [updateContactWithWrenchSensor, Res.bind_eq_ok] at h
  obtain ⟨c, h1, kin, h2, h4⟩ := h
  have h6 := (Res.ok.inj h4).symm
  have hc := selectContact_ok h1
  rw [start_maxContacts, start_contacts] at hc
  rw [start_contacts] at h6
  exact ⟨c, kin, match (generalizing := false) cov with
    | some M => c.sensorCov.assign M
    | none => if c.sensorCov.isSet dbg then c.sensorCov else c.sensorCov.assign o.startNewIteration.wrenchCov, hc.1, hc.2.1, hc.2.2, h2, rfl, h6⟩

theorem updateContactWithNoSensor_eq {k : Kin} {n : ℕ} (h : o.updateContactWithNoSensor k n = .ok o') :
    ∃ c kin, n < o.maxContacts ∧ o.contacts[n]? = some c ∧ c.isSet = true ∧ o.startNewIteration.newContactKin c k = .ok kin ∧
      o' = { o.startNewIteration with
        contacts := o.contacts.set n { c with localKine := kin, time := o.startNewIteration.kData, withRealSensor := false }
        nReal := if c.withRealSensor then o.startNewIteration.nReal - 1 else o.startNewIteration.nReal } := by
  simp only [updateContactWithNoSensor, Res.bind_eq_ok] at h
  obtain ⟨c, h1, kin, h2, h4⟩ := h
  have h6 := (Res.ok.inj h4).symm
  have hc := selectContact_ok h1
  rw [start_maxContacts, start_contacts] at hc
  rw [start_contacts] at h6
  exact ⟨c, kin, hc.1, hc.2.1, hc.2.2, h2, h6⟩

theorem addContact_eq {pose : Kin} {cov : Option (M12 × M12)} {num : Int} {v : Visco} {n : ℕ} (h : o.addContact pose cov num v = .ok (n, o')) :
    ∃ c c' x e, o.contactNumber num = .ok n ∧ n < o.maxContacts ∧ o.contacts[n]? = some c ∧ c.isSet = false ∧ c'.isSet = true ∧ c'.time = c.time ∧
      c'.withRealSensor = c.withRealSensor ∧ o' = { o with contacts := o.contacts.set n c', x := x, ekf := e } := by
  simp only [addContact, Res.bind_eq_ok] at h
  obtain ⟨_, -, n', hn, _, h1, c, h2, _, h3, si, -, st, -, r, -, x, -, o1, h4, o2, h5, h6⟩ := h
  have h7 := Res.ok.inj h6
  obtain rfl : n' = n := congrArg Prod.fst h7
  obtain rfl : o2 = o' := congrArg Prod.snd h7
  have h1 := Res.assert_ok h1
  have h3 := Res.assert_ok h3
  have e2 := withQ_eq h5
  rw [withP_eq h4] at e2
  exact ⟨c, { c with
      isSet := true
      stateIndex := (si + n' * 13 : ℕ)
      stateIndexTangent := (st + n' * 12 : ℕ)
      absPose := pose
      visco := some (newVisco o v) }, x, o2.ekf, hn, by simpa using h1, rd_ok h2, by simpa using h3, rfl, rfl, rfl, e2⟩

theorem removeContact_eq {n : Int} (h : o.removeContact n = .ok o') :
    ∃ c, 0 ≤ n ∧ o.contacts[n.toNat]? = some c ∧ c.isSet = false ∧
      o' = { o with
        contacts := o.contacts.set n.toNat { c with isSet := false, withRealSensor := false }
        nReal := if c.withRealSensor then o.nReal - 1 else o.nReal } := by
  simp only [removeContact, Res.bind_eq_ok] at h
  obtain ⟨c, h1, _, h2, h3⟩ := h
  have h2 := Res.assert_ok h2
  have h1 := rd_ok h1
  split_ifs at h1 with hn
  exact ⟨c, by omega, h1, by simpa using h2, (Res.ok.inj h3).symm⟩

end Observer

open Observer

/-- **C58**: after every history, the data time is the estimation time or the next one, and the estimation time is the one the observer gives for its state. -/
theorem C58_clock {l : List Op} (h : Reachable nc ni l o) : (o.kData = o.kEst ∨ o.kData = o.kEst + 1) ∧ o.getStateVectorTimeIndex = .ok o.kEst := by
  have hi := inv_reachable h
  refine ⟨hi.2.time, ?_⟩
  obtain ⟨v, hv, -⟩ := hi.2.ekf.x
  simp only [getStateVectorTimeIndex, hv, Obs.getCurrentTime]

/-- **C58**: `update()` makes the estimation time equal to the data time, which it does not change; called again, it changes nothing. -/
theorem C58_update {l : List Op} (h : Reachable nc ni l o) (hu : o.update = .ok o') :
    o'.kEst = o.kData ∧ o'.kData = o.kData ∧ o'.getStateVectorTimeIndex = .ok o.kData ∧ o'.update = .ok o' := by
  have hi := inv_reachable h
  have hr : Reachable nc ni (l ++ [.update]) o' := by
    obtain ⟨o0, h0, h1⟩ := h
    refine ⟨o0, h0, ?_⟩
    rw [Op.run, List.foldlM_append]
    rw [Op.run] at h1
    rw [h1]
    simp [Op.exec, hu]
  have key : o'.kEst = o.kData ∧ o'.kData = o.kData := by
    by_cases hk : o.kEst = o.kData
    · rw [update, if_neg (by simpa using hk)] at hu
      cases hu
      exact ⟨hk, rfl⟩
    · obtain ⟨_, _, -, -, e⟩ := book_update hu hk
      have e1 := congrArg Book.kEst e
      have e2 := congrArg Book.kData e
      simp only [book] at e1 e2
      have := hi.2.time
      exact ⟨by omega, e2⟩
  refine ⟨key.1, key.2, ?_, ?_⟩
  · rw [← key.1]; exact (C58_clock hr).2
  · rw [update, if_neg (by simp [key.1, key.2])]

theorem clock_exec (hi : Inv nc ni o) (op : Op) (hop : Op.exec o op = .ok o') (hne : op ≠ .update) :
    o'.kEst = o.kEst ∧ (op.BringsData → o'.kData = o.kEst + 1) ∧ (¬ op.BringsData → o'.kData = o.kData) := by
  have hs := start_kData hi
  by_cases hd : op.isData = true
  · have e := book_data op hd hop
    have e1 := congrArg Book.kEst e
    have e2 := congrArg Book.kData e
    simp only [book, start_kEst] at e1 e2
    refine ⟨e1, fun _ => e2.trans hs, fun hb => (hb ?_).elim⟩
    cases op <;> simp_all [Op.isData, Op.BringsData]
  by_cases hsn : op.isSensor = true
  · cases op <;> simp only [Op.isSensor, reduceCtorEq] at hsn <;> simp only [Op.exec, Res.bind_eq_ok] at hop
    case update => exact (hne rfl).elim
    case setIMU =>
      obtain ⟨⟨n, o1⟩, h1, h2⟩ := hop
      cases h2
      obtain ⟨m, kin, c1, c2, -, -, -, -, rfl⟩ := setIMU_eq h1
      exact ⟨start_kEst, fun _ => hs, fun hb => (hb trivial).elim⟩
    case updateContactWithWrenchSensor =>
      obtain ⟨c, kin, sc, -, -, -, -, -, rfl⟩ := updateContactWithWrenchSensor_eq hop
      exact ⟨start_kEst, fun _ => hs, fun hb => (hb trivial).elim⟩
    case updateContactWithNoSensor =>
      obtain ⟨c, kin, -, -, -, -, rfl⟩ := updateContactWithNoSensor_eq hop
      exact ⟨start_kEst, fun _ => hs, fun hb => (hb trivial).elim⟩
    case setAbsolutePoseSensor =>
      cases hop
      exact ⟨start_kEst, fun _ => hs, fun hb => (hb trivial).elim⟩
    case addContact =>
      obtain ⟨⟨n, o1⟩, h1, h2⟩ := hop
      cases h2
      obtain ⟨c, c', x, e, -, -, -, -, -, -, -, rfl⟩ := addContact_eq h1
      exact ⟨rfl, fun hb => hb.elim, fun _ => rfl⟩
    case removeContact =>
      obtain ⟨c, -, -, -, rfl⟩ := removeContact_eq hop
      exact ⟨rfl, fun hb => hb.elim, fun _ => rfl⟩
    case clearContacts => cases hop; exact ⟨rfl, fun hb => hb.elim, fun _ => rfl⟩
    case resetInputs => cases hop; exact ⟨rfl, fun hb => hb.elim, fun _ => rfl⟩
  · have e := book_inner op (by simpa using hd) (by simpa using hsn) hop
    have e1 := congrArg Book.kEst e
    have e2 := congrArg Book.kData e
    simp only [book] at e1 e2
    refine ⟨e1, fun hb => ?_, fun _ => e2⟩
    cases op <;> simp_all [Op.isData, Op.isSensor, Op.BringsData]

/-- **C58**: a call that brings data makes the data time the one that follows the estimation time, which it does not change; a call that is not one of these nor
`update()` changes neither. -/
theorem C58_other {l : List Op} (h : Reachable nc ni l o) (op : Op) (hop : Op.exec o op = .ok o') (hne : op ≠ .update) :
    o'.kEst = o.kEst ∧ (op.BringsData → o'.kData = o.kEst + 1) ∧ (¬ op.BringsData → o'.kData = o.kData) :=
  clock_exec (inv_reachable h) op hop hne

/-! ## C57 -/

/-- **C57** for a given number: the data go into the IMU of this number, which had no data for this iteration yet, and the other IMUs are left alone. -/
theorem C57_setIMU_partial {l : List Op} (h : Reachable nc ni l o) {a g : V3} {cov : Option (M3 × M3)} {k : Kin} {num : Int} {n : ℕ} (hn : 0 ≤ num)
    (hs : o.setIMU a g cov k num = .ok (n, o')) :
    num = n ∧ n < ni ∧ (∃ m, o.imus[n]? = some m ∧ m.time < o'.kData) ∧ (∃ m, o'.imus[n]? = some m ∧ m.time = o'.kData ∧ m.signal = some ![a 0, a 1, a 2, g 0, g 1, g 2]) ∧
      ∀ j, j ≠ n → o'.imus[j]? = o.imus[j]? := by
  have hi := inv_reachable h
  obtain ⟨m, kin, c1, c2, h1, h2, h3, -, rfl⟩ := setIMU_eq hs
  rw [imuNumber, if_neg (by omega)] at h1
  obtain rfl := Res.ok.inj h1
  simp only [selectIMU, Res.bind_eq_ok] at h2
  obtain ⟨_, ha, m', hm, _, hb, h2⟩ := h2
  cases h2
  have ha := Res.assert_ok ha
  have hb := Res.assert_ok hb
  have hm := rd_ok hm
  simp only [start_imus, start_maxIMU, hi.1.2, decide_eq_true_eq] at ha hb hm
  have hl : num.toNat < o.imus.length := by rw [hi.2.imuLen]; exact ha
  refine ⟨by omega, ha, ⟨_, hm, hb⟩, ⟨_, List.getElem?_set_self hl, rfl, rfl⟩, fun j hj => ?_⟩
  simp [List.getElem?_set, Ne.symm hj]

theorem setIMU_auto (hi0 : Inv nc ni o) (a g : V3) (cov : Option (M3 × M3)) (k : Kin) {num : Int} (hn : num < 0) :
    ∀ r, o.setIMU a g cov k num ≠ .ok r := by
  rintro ⟨n, o'⟩ hs
  have hi := inv_start hi0
  obtain ⟨m, kin, c1, c2, h1, h2, -⟩ := setIMU_eq hs
  rw [imuNumber, if_pos hn] at h1
  simp only [selectIMU, Res.bind_eq_ok] at h2
  obtain ⟨_, ha, m', hm, _, hb, h2⟩ := h2
  cases h2
  have hb := Res.assert_ok hb
  have hm := rd_ok hm
  have key : ∀ (fuel j : ℕ), j + fuel = o.startNewIteration.imus.length + 2 → j ≤ o.startNewIteration.imus.length →
      autoIMU o.startNewIteration.imus o.startNewIteration.kData fuel j = .ok n →
      ∃ m, o.startNewIteration.imus[n]? = some m ∧ m.time = o.startNewIteration.kData := by
    intro fuel
    induction fuel with
    | zero => intro j h1 h2; omega
    | succ fuel ih =>
      intro j h1 h2 h3
      simp only [autoIMU, Res.bind_eq_ok] at h3
      obtain ⟨mj, hmj, h3⟩ := h3
      have hmj := rd_ok hmj
      have hj : j < o.startNewIteration.imus.length := by
        by_contra hc
        rw [List.getElem?_eq_none (by omega)] at hmj
        cases hmj
      split_ifs at h3 with hc
      · exact ih (j + 1) (by omega) (by omega) h3
      · obtain rfl := Res.ok.inj h3
        refine ⟨mj, hmj, ?_⟩
        by_contra hx
        exact hc ⟨hx, hj⟩
  obtain ⟨m2, hm2, ht⟩ := key _ 0 (by omega) (by omega) h1
  rw [hm] at hm2
  cases hm2
  simp [ht] at hb

/-- **C57** fails: `setIMU` with automatic numbering never returns. The loop goes on while the IMU has no data for this iteration, so that it leaves the vector,
or stops at an IMU that has data already, for which the next assertion fails. -/
theorem C57_false {l : List Op} (h : Reachable nc ni l o) (a g : V3) (cov : Option (M3 × M3)) (k : Kin) {num : Int} (hn : num < 0) :
    ∀ r, o.setIMU a g cov k num ≠ .ok r :=
  setIMU_auto (inv_reachable h) a g cov k hn

/-! ## C59 -/

/-- The three options. -/
structure Options where
  gyroBias : Bool
  unmodeledWrench : Bool
  acceleration : Bool

def Observer.options (o : Observer) : Options := ⟨o.withGyroBias, o.withUnmodeledWrench, o.withAcc⟩

/-- **C59**: `setWithUnmodeledWrench` and `setWithAccelerationEstimation` set their own option and leave the other two and the state alone. -/
theorem C59_partial (o : Observer) (b : Bool) :
    ((o.setWithUnmodeledWrench b).options = { o.options with unmodeledWrench := b } ∧ (o.setWithUnmodeledWrench b).getCurrentStateVector = o.getCurrentStateVector) ∧
    ((o.setWithAccelerationEstimation b).options = { o.options with acceleration := b } ∧
      (o.setWithAccelerationEstimation b).getCurrentStateVector = o.getCurrentStateVector) := ⟨⟨rfl, rfl⟩, ⟨rfl, rfl⟩⟩

theorem book_sensor_gyro (op : Op) (hsn : op.isSensor = true) (hop : Op.exec o op = .ok o') : o'.withGyroBias = o.withGyroBias := by
  have hs : o.startNewIteration.withGyroBias = o.withGyroBias := by unfold startNewIteration; split_ifs <;> rfl
  cases op <;> simp only [Op.isSensor, reduceCtorEq] at hsn <;> simp only [Op.exec, Res.bind_eq_ok] at hop
  case update =>
    by_cases hk : o.kEst = o.kData
    · rw [update, if_neg (by simpa using hk)] at hop
      cases hop; rfl
    · obtain ⟨_, _, -, -, e⟩ := book_update hop hk
      exact congrArg Book.withGyroBias e
  case setIMU =>
    obtain ⟨⟨n, o1⟩, h1, h2⟩ := hop
    cases h2
    obtain ⟨m, kin, c1, c2, -, -, -, -, rfl⟩ := setIMU_eq h1
    exact hs
  case updateContactWithWrenchSensor =>
    obtain ⟨c, kin, sc, -, -, -, -, -, rfl⟩ := updateContactWithWrenchSensor_eq hop
    exact hs
  case updateContactWithNoSensor =>
    obtain ⟨c, kin, -, -, -, -, rfl⟩ := updateContactWithNoSensor_eq hop
    exact hs
  case setAbsolutePoseSensor => cases hop; exact hs
  case addContact =>
    obtain ⟨⟨n, o1⟩, h1, h2⟩ := hop
    cases h2
    obtain ⟨c, c', x, e, -, -, -, -, -, -, -, rfl⟩ := addContact_eq h1
    rfl
  case removeContact =>
    obtain ⟨c, -, -, -, rfl⟩ := removeContact_eq hop
    rfl
  case clearContacts => cases hop; rfl
  case resetInputs => cases hop; rfl

/-- **C59** fails: no history switches the estimation of the gyrometer biases off. -/
theorem C59_setWithGyroBias_false {l : List Op} (h : Reachable nc ni l o) : o.options.gyroBias = true := by
  obtain ⟨o0, h0, h1⟩ := h
  refine Res.foldlM_inv (fun o => o.withGyroBias = true) (fun b op b' hb e => ?_) _ _ _ h1 ?_
  · rw [← hb]
    by_cases hd : op.isData = true
    · have := congrArg Book.withGyroBias (book_data op hd e)
      refine this.trans ?_
      simp only [book]
      unfold startNewIteration; split_ifs <;> rfl
    by_cases hsn : op.isSensor = true
    · exact book_sensor_gyro op hsn e
    · exact congrArg Book.withGyroBias (book_inner op (by simpa using hd) (by simpa using hsn) e)
  · obtain ⟨o', o1, o2, k, h2, rfl, hs, hq⟩ := construct_spec (nc := nc) (construct_pos h0)
    obtain rfl := Res.ok.inj (h2.symm.trans h0)
    obtain ⟨P0, P1, -, rfl, -⟩ := hs
    obtain ⟨Q0, Q1, -, rfl, -⟩ := hq
    rfl

/-- **C59** fails: `setWithGyroBias` sets the option of the accelerations. -/
theorem C59_setWithGyroBias_other_false (o : Observer) (b : Bool) : (o.setWithGyroBias b).options = { o.options with acceleration := b } := rfl

end StateObs.KO
