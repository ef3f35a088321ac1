import Verif.KO.StateLemmas
/-!
# Which calls change the parameters
-/

namespace StateObs.KO
open StateObs Matrix Rot Kine KF

variable {nc ni : ℕ} {o o' : Observer}

/-- The parameters of the observer. -/
structure Params where
  dt : ℝ
  mass : ℝ
  addForce : V3
  addTorque : V3
  withGyroBias : Bool
  withUnmodeledWrench : Bool
  withAcc : Bool
  finiteDiff : Bool
  dx : DVec
  visco : Visco
  accCov : M3
  gyroCov : M3
  wrenchCov : M6
  absCov : M6
  kineInit : M12
  gyroBiasInit : M3
  unmodeledInit : M6
  contactInit : M12
  kineProc : M12
  gyroBiasProc : M3
  unmodeledProc : M6
  contactProc : M12

/-- The parameters of an observer. -/
def Observer.params (o : Observer) : Params :=
  ⟨o.dt, o.mass, o.addForce, o.addTorque, o.withGyroBias, o.withUnmodeledWrench, o.withAcc, o.finiteDiff, o.dx, o.viscoDefault, o.accCov, o.gyroCov, o.wrenchCov,
    o.absCov, o.kineInit, o.gyroBiasInit, o.unmodeledInit, o.contactInit, o.kineProc, o.gyroBiasProc, o.unmodeledProc, o.contactProc⟩

/-- The calls that set parameters. -/
def Op.isParam : Op → Bool
  | .setSamplingTime .. | .setMass .. | .setAdditionalWrench .. | .setWithUnmodeledWrench .. | .setWithAccelerationEstimation .. | .setWithGyroBias .. |
    .setIMUDefaultCovarianceMatrix .. | .setContactWrenchSensorDefaultCovarianceMatrix .. | .setAbsolutePoseSensorDefaultCovarianceMatrix .. |
    .setKinematicsInitCovarianceDefault .. | .setGyroBiasInitCovarianceDefault .. | .setUnmodeledWrenchInitCovMatDefault .. | .setContactInitCovMatDefault .. |
    .resetSensorsDefaultCovMat | .setFiniteDifferenceStep .. | .useFiniteDifferencesJacobians .. => true
  | _ => false

namespace Observer

theorem params_withP {f : DMat → Res DMat} (e : o.withP f = .ok o') : o'.params = o.params := by rw [withP_eq e]; rfl

theorem params_withQ {f : DMat → Res DMat} (e : o.withQ f = .ok o') : o'.params = o.params := by rw [withQ_eq e]; rfl

theorem params_pushState (h : o.pushState = .ok o') : o'.params = o.params := by
  simp only [pushState, Res.bind_eq_ok] at h
  obtain ⟨e1, -, h2⟩ := h
  cases h2; rfl

theorem params_updateKine (h : o.updateKine = .ok o') : o'.params = o.params := by
  simp only [updateKine, Res.bind_eq_ok] at h
  obtain ⟨s, -, k, -, h2⟩ := h
  cases h2; rfl

theorem params_estimateAccelerations (h : o.estimateAccelerations = .ok o') : o'.params = o.params := by
  simp only [estimateAccelerations, Res.bind_eq_ok] at h
  obtain ⟨_, -, _, -, h⟩ := h
  cases h; rfl

theorem params_resetStateContactCovMat {n : ℕ} (h : o.resetStateContactCovMat n = .ok o') : o'.params = o.params := by
  unfold resetStateContactCovMat at h
  split at h
  · cases h
  · rw [Res.bind_eq_ok] at h
    obtain ⟨_, -, h⟩ := h
    exact params_withP h

theorem params_resetStateContactsCovMat (h : o.resetStateContactsCovMat = .ok o') : o'.params = o.params := by
  refine Res.foldlM_inv (fun q => q.params = o.params) (fun b a b' hb e => ?_) _ _ _ h rfl
  simp only [resetStateContactIfSet, Res.bind_eq_ok] at e
  obtain ⟨c, -, e⟩ := e
  split_ifs at e
  · exact (params_resetStateContactCovMat e).trans hb
  · cases e; exact hb

theorem params_resetStateCovarianceMat (h : o.resetStateCovarianceMat = .ok o') : o'.params = o.params := by
  simp only [resetStateCovarianceMat, Res.bind_eq_ok] at h
  obtain ⟨q1, h1, q2, h2, q3, h3, h4⟩ := h
  refine (params_resetStateContactsCovMat h4).trans ((params_withP h3).trans (Eq.trans ?_ (params_withP h1)))
  refine Res.foldlM_inv (fun q => q.params = q1.params) (fun b a b' hb e => ?_) _ _ _ h2 rfl
  simp only [resetStateGyroBiasIfTime, Res.bind_eq_ok] at e
  obtain ⟨c, -, e⟩ := e
  split_ifs at e
  · exact (params_withP e).trans hb
  · cases e; exact hb

theorem params_resetProcessContactCovMat {n : ℕ} (h : o.resetProcessContactCovMat n = .ok o') : o'.params = o.params := by
  simp only [resetProcessContactCovMat, Res.bind_eq_ok] at h
  obtain ⟨_, -, _, -, _, -, h⟩ := h
  exact params_withQ h

theorem params_resetProcessContactsCovMat (h : o.resetProcessContactsCovMat = .ok o') : o'.params = o.params := by
  refine Res.foldlM_inv (fun q => q.params = o.params) (fun b a b' hb e => ?_) _ _ _ h rfl
  simp only [resetProcessContactIfSet, Res.bind_eq_ok] at e
  obtain ⟨c, -, e⟩ := e
  split_ifs at e
  · exact (params_resetProcessContactCovMat e).trans hb
  · cases e; exact hb

theorem params_resetProcessCovarianceMat (h : o.resetProcessCovarianceMat = .ok o') : o'.params = o.params := by
  simp only [resetProcessCovarianceMat, Res.bind_eq_ok] at h
  obtain ⟨q1, h1, q2, h2, q3, h3, h4⟩ := h
  refine (params_resetProcessContactsCovMat h4).trans ((params_withQ h3).trans (Eq.trans ?_ (params_withQ h1)))
  exact Res.foldlM_inv (fun q => q.params = q1.params) (fun b a b' hb e => (params_withQ e).trans hb) _ _ _ h2 rfl

theorem params_inner (op : Op) (hd : op.isData = false) (hs : op.isSensor = false) (hp : op.isParam = false) (h : Op.exec o op = .ok o') : o'.params = o.params := by
  cases op <;> simp only [Op.isData, Op.isSensor, Op.isParam, reduceCtorEq] at hd hs hp <;> clear hd hs hp <;> simp only [Op.exec, Res.bind_eq_ok] at h
  any_goals exact params_withP h
  any_goals exact params_withQ h
  case estimateAccelerations => exact params_estimateAccelerations h
  case setStateKinematics =>
    simp only [setStateKinematics, Res.bind_eq_ok] at h
    obtain ⟨_, -, r, -, x, -, x2, -, o1, h1, h2⟩ := h
    have e1 := params_pushState h1
    refine Eq.trans (b := o1.params) ?_ (by exact e1)
    split_ifs at h2
    · exact params_withP h2
    · cases h2; rfl
  case setGyroBias =>
    simp only [setGyroBias, Res.bind_eq_ok] at h
    obtain ⟨j, -, x, -, o1, h1, h2⟩ := h
    have e1 := params_pushState h1
    refine Eq.trans (b := o1.params) ?_ (by exact e1)
    split_ifs at h2
    · exact params_withP h2
    · cases h2; rfl
  case setStateUnmodeledWrench =>
    simp only [setStateUnmodeledWrench, Res.bind_eq_ok] at h
    obtain ⟨j, -, x, -, o1, h1, h2⟩ := h
    have e1 := params_pushState h1
    refine Eq.trans (b := o1.params) ?_ (by exact e1)
    split_ifs at h2
    · exact params_withP h2
    · cases h2; rfl
  case setStateVector =>
    simp only [setStateVector, Res.bind_eq_ok] at h
    obtain ⟨o1, h1, o2, h2, h3⟩ := h
    have e1 := (params_updateKine h2).trans (params_pushState h1)
    refine Eq.trans (b := o2.params) ?_ (by exact e1)
    split_ifs at h3
    · exact params_resetStateCovarianceMat h3
    · cases h3; rfl
  case resetStateCovarianceMat => exact params_resetStateCovarianceMat h
  case resetStateContactsCovMat => exact params_resetStateContactsCovMat h
  case resetStateContactCovMat => exact params_resetStateContactCovMat h
  case resetProcessCovarianceMat => exact params_resetProcessCovarianceMat h
  case resetProcessContactsCovMat => exact params_resetProcessContactsCovMat h
  case resetProcessContactCovMat => exact params_resetProcessContactCovMat h
  case getMeasurementVector =>
    obtain ⟨r, h1, h2⟩ := h
    cases h2
    simp only [getMeasurementVector, Res.bind_eq_ok] at h1
    obtain ⟨n, -, h⟩ := h1
    split_ifs at h
    · simp only [Res.bind_eq_ok] at h
      obtain ⟨_, -, _, -, _, -, _, -, h⟩ := h
      cases h; rfl
    · cases h; rfl

theorem params_start (o : Observer) : o.startNewIteration.params = o.params := by
  unfold startNewIteration
  split_ifs <;> rfl

theorem params_data (op : Op) (hd : op.isData = true) (h : Op.exec o op = .ok o') : o'.params = o.params := by
  rw [← params_start o]
  cases op <;> simp only [Op.isData, reduceCtorEq] at hd <;> clear hd <;> simp only [Op.exec] at h
  any_goals (cases h; rfl)
  case setInertiaMatrix =>
    simp only [setInertiaMatrix, Res.bind_eq_ok] at h
    obtain ⟨_, -, h⟩ := h
    cases h; rfl
  case setInertiaVector =>
    simp only [setInertiaVector, Res.bind_eq_ok] at h
    obtain ⟨_, -, h⟩ := h
    split_ifs at h
    · rw [Res.bind_eq_ok] at h
      obtain ⟨_, -, h⟩ := h
      cases h; rfl
    · cases h; rfl
  case setCenterOfMass2 =>
    simp only [setCenterOfMass2, Res.bind_eq_ok] at h
    obtain ⟨_, -, h⟩ := h
    cases h; rfl
  case setCenterOfMass =>
    simp only [setCenterOfMass, Res.bind_eq_ok] at h
    obtain ⟨_, -, h⟩ := h
    split_ifs at h
    · simp only [Res.bind_eq_ok] at h
      obtain ⟨_, -, _, -, _, -, h⟩ := h
      cases h; rfl
    · cases h; rfl
  case setAngularMomentum =>
    simp only [setAngularMomentum, Res.bind_eq_ok] at h
    obtain ⟨_, -, h⟩ := h
    cases h; rfl

theorem params_other (op : Op) (hp : op.isParam = false) (h : Op.exec o op = .ok o') : o'.params = o.params := by
  by_cases hd : op.isData = true
  · exact params_data op hd h
  by_cases hs : op.isSensor = false
  · exact params_inner op (by simpa using hd) hs hp h
  cases op <;> simp only [Op.isSensor, reduceCtorEq, not_true_eq_false] at hs <;> clear hp hd hs <;> simp only [Op.exec, Res.bind_eq_ok] at h
  any_goals (cases h; rfl)
  case update =>
    rw [update] at h
    split_ifs at h with hk
    · simp only [Res.bind_eq_ok] at h
      obtain ⟨⟨o1, y, cov⟩, h1, e, -, h3⟩ := h
      obtain ⟨imus, contacts, abs, m, mt, rfl, hi, hc, ha⟩ := buildMeasurement_ok h1
      simp only [afterFilter, Res.bind_eq_ok] at h3
      obtain ⟨x, -, o2, h4, h5⟩ := h3
      have e2 := params_updateKine h4
      have e1 : o'.params = o2.params := by
        split_ifs at h5
        · exact params_estimateAccelerations h5
        · cases h5; rfl
      rw [e1, e2]; rfl
    · cases h; rfl
  case setIMU =>
    rw [← params_start o]
    obtain ⟨r, h1, h2⟩ := h
    cases h2
    simp only [setIMU, Res.bind_eq_ok] at h1
    obtain ⟨n, -, m, -, k, -, h⟩ := h1
    cases h; rfl
  case updateContactWithWrenchSensor =>
    rw [← params_start o]
    simp only [updateContactWithWrenchSensor, Res.bind_eq_ok] at h
    obtain ⟨c, -, k, -, h⟩ := h
    cases h; rfl
  case updateContactWithNoSensor =>
    rw [← params_start o]
    simp only [updateContactWithNoSensor, Res.bind_eq_ok] at h
    obtain ⟨c, -, k, -, h⟩ := h
    cases h; rfl
  case setAbsolutePoseSensor =>
    cases h
    rw [← params_start o]; rfl
  case addContact =>
    obtain ⟨r, h1, h2⟩ := h
    cases h2
    simp only [addContact, Res.bind_eq_ok] at h1
    obtain ⟨_, -, m, hm, _, -, c, hc, _, hs, si, hsi, st, -, r0, hr0, x1, hx1, o1, ho1, o2, ho2, h⟩ := h1
    cases h
    have := (params_withQ ho2).trans (params_withP ho1)
    exact this
  case removeContact =>
    simp only [removeContact, Res.bind_eq_ok] at h
    obtain ⟨c, -, _, -, h⟩ := h
    cases h; rfl

theorem params_construct (h : construct nc ni = .ok o) : o.params = (init nc ni).params := by
  simp only [construct, Res.bind_eq_ok] at h
  obtain ⟨e1, -, e2, -, e3, -, e4, -, o1, h1, o2, h2, h3⟩ := h
  have := (params_updateKine h3).trans ((params_resetProcessCovarianceMat h2).trans (params_resetStateCovarianceMat (by exact h1)))
  exact this

end Observer

/-- The value of the last call that gives one (`f` tells which calls do, and the value), `a` before the first. -/
def last {α : Type} (f : Op → Option α) (a : α) : List Op → α
  | [] => a
  | op :: l => last f ((f op).getD a) l

theorem last_run {α : Type} (field : Params → α) (f : Op → Option α)
    (step : ∀ (o o' : Observer) (op : Op), op.exec o = .ok o' → field o'.params = (f op).getD (field o.params)) :
    ∀ (l : List Op) (o o' : Observer), Op.run o l = .ok o' → field o'.params = last f (field o.params) l := by
  intro l
  induction l with
  | nil => intro o o' e; cases e; rfl
  | cons op l ih =>
    intro o o' e
    simp only [Op.run, List.foldlM_cons, Res.bind_eq_ok] at e
    obtain ⟨o1, e1, e2⟩ := e
    rw [ih _ _ e2, step _ _ _ e1]
    rfl

theorem last_reachable {α : Type} (field : Params → α) (f : Op → Option α) (hf : ∀ op, op.isParam = false → f op = none)
    (step : ∀ (o o' : Observer) (op : Op), op.isParam = true → op.exec o = .ok o' → field o'.params = (f op).getD (field o.params))
    {l : List Op} (h : Reachable nc ni l o) : field o.params = last f (field (Observer.init nc ni).params) l := by
  obtain ⟨o0, h0, h1⟩ := h
  rw [last_run field f (fun p p' op e => ?_) l o0 o h1, Observer.params_construct h0]
  cases hp : op.isParam with
  | true => exact step p p' op hp e
  | false => rw [hf op hp, Observer.params_other op hp e]; rfl

end StateObs.KO
