import Verif.KO.PsdInv
/-!
# Which calls change the bookkeeping of the sensors, contacts and times
-/

namespace StateObs.KO
open StateObs Matrix Rot Kine KF

variable {nc ni : ℕ} {o o' : Observer}

/-- The bookkeeping: contacts, IMUs, time of the absolute pose, the two times, the two counters (and the option of the gyrometer biases, that no call changes). -/
structure Book where
  maxContacts : ℕ
  maxIMU : ℕ
  contacts : List Contact
  imus : List IMU
  absTime : Int
  kEst : Int
  kData : Int
  nReal : Int
  nIMU : Int
  withGyroBias : Bool

/-- The bookkeeping of an observer. -/
def Observer.book (o : Observer) : Book := ⟨o.maxContacts, o.maxIMU, o.contacts, o.imus, o.abs.time, o.kEst, o.kData, o.nReal, o.nIMU, o.withGyroBias⟩

/-- The calls that give inertial data. -/
def Op.isData : Op → Bool
  | .setInertiaMatrix2 .. | .setInertiaMatrix .. | .setInertiaVector2 .. | .setInertiaVector .. | .setCenterOfMass3 .. | .setCenterOfMass2 .. |
    .setCenterOfMass .. | .setAngularMomentum2 .. | .setAngularMomentum .. => true
  | _ => false

/-- The calls on sensors and contacts, and `update()`. -/
def Op.isSensor : Op → Bool
  | .update | .setIMU .. | .updateContactWithWrenchSensor .. | .updateContactWithNoSensor .. | .setAbsolutePoseSensor .. | .addContact .. | .removeContact .. |
    .clearContacts | .resetInputs => true
  | _ => false

namespace Observer

theorem book_withP {f : DMat → Res DMat} (e : o.withP f = .ok o') : o'.book = o.book := by rw [withP_eq e]; rfl

theorem withQ_eq {f : DMat → Res DMat} (e : o.withQ f = .ok o') : o' = { o with ekf := o'.ekf } := by
  simp only [withQ, Res.bind_eq_ok] at e
  obtain ⟨P, -, e1, h1, h2⟩ := e
  cases h2; rfl

theorem book_withQ {f : DMat → Res DMat} (e : o.withQ f = .ok o') : o'.book = o.book := by rw [withQ_eq e]; rfl

theorem book_pushState (h : o.pushState = .ok o') : o'.book = o.book := by
  simp only [pushState, Res.bind_eq_ok] at h
  obtain ⟨e1, -, h2⟩ := h
  cases h2; rfl

theorem book_updateKine (h : o.updateKine = .ok o') : o'.book = o.book := by
  simp only [updateKine, Res.bind_eq_ok] at h
  obtain ⟨s, -, k, -, h2⟩ := h
  cases h2; rfl

theorem book_estimateAccelerations (h : o.estimateAccelerations = .ok o') : o'.book = o.book := by
  simp only [estimateAccelerations, Res.bind_eq_ok] at h
  obtain ⟨_, -, _, -, h⟩ := h
  cases h; rfl

theorem book_resetStateContactCovMat {n : ℕ} (h : o.resetStateContactCovMat n = .ok o') : o'.book = o.book := by
  unfold resetStateContactCovMat at h
  split at h
  · cases h
  · rw [Res.bind_eq_ok] at h
    obtain ⟨_, -, h⟩ := h
    exact book_withP h

theorem book_resetStateContactsCovMat (h : o.resetStateContactsCovMat = .ok o') : o'.book = o.book := by
  refine Res.foldlM_inv (fun q => q.book = o.book) (fun b a b' hb e => ?_) _ _ _ h rfl
  simp only [resetStateContactIfSet, Res.bind_eq_ok] at e
  obtain ⟨c, -, e⟩ := e
  split_ifs at e
  · exact (book_resetStateContactCovMat e).trans hb
  · cases e; exact hb

theorem book_resetStateCovarianceMat (h : o.resetStateCovarianceMat = .ok o') : o'.book = o.book := by
  simp only [resetStateCovarianceMat, Res.bind_eq_ok] at h
  obtain ⟨q1, h1, q2, h2, q3, h3, h4⟩ := h
  refine (book_resetStateContactsCovMat h4).trans ((book_withP h3).trans (Eq.trans ?_ (book_withP h1)))
  refine Res.foldlM_inv (fun q => q.book = q1.book) (fun b a b' hb e => ?_) _ _ _ h2 rfl
  simp only [resetStateGyroBiasIfTime, Res.bind_eq_ok] at e
  obtain ⟨c, -, e⟩ := e
  split_ifs at e
  · exact (book_withP e).trans hb
  · cases e; exact hb

theorem book_resetProcessContactCovMat {n : ℕ} (h : o.resetProcessContactCovMat n = .ok o') : o'.book = o.book := by
  simp only [resetProcessContactCovMat, Res.bind_eq_ok] at h
  obtain ⟨_, -, _, -, _, -, h⟩ := h
  exact book_withQ h

theorem book_resetProcessContactsCovMat (h : o.resetProcessContactsCovMat = .ok o') : o'.book = o.book := by
  refine Res.foldlM_inv (fun q => q.book = o.book) (fun b a b' hb e => ?_) _ _ _ h rfl
  simp only [resetProcessContactIfSet, Res.bind_eq_ok] at e
  obtain ⟨c, -, e⟩ := e
  split_ifs at e
  · exact (book_resetProcessContactCovMat e).trans hb
  · cases e; exact hb

theorem book_resetProcessCovarianceMat (h : o.resetProcessCovarianceMat = .ok o') : o'.book = o.book := by
  simp only [resetProcessCovarianceMat, Res.bind_eq_ok] at h
  obtain ⟨q1, h1, q2, h2, q3, h3, h4⟩ := h
  refine (book_resetProcessContactsCovMat h4).trans ((book_withQ h3).trans (Eq.trans ?_ (book_withQ h1)))
  exact Res.foldlM_inv (fun q => q.book = q1.book) (fun b a b' hb e => (book_withQ e).trans hb) _ _ _ h2 rfl

theorem book_inner (op : Op) (hd : op.isData = false) (hs : op.isSensor = false) (h : Op.exec o op = .ok o') : o'.book = o.book := by
  cases op <;> simp only [Op.isData, Op.isSensor, reduceCtorEq] at hd hs <;> clear hd hs <;> simp only [Op.exec, Res.bind_eq_ok] at h
  any_goals (cases h; rfl)
  any_goals exact book_withP h
  any_goals exact book_withQ h
  case estimateAccelerations => exact book_estimateAccelerations h
  case setStateKinematics =>
    simp only [setStateKinematics, Res.bind_eq_ok] at h
    obtain ⟨_, -, r, -, x, -, x2, -, o1, h1, h2⟩ := h
    have e1 := book_pushState h1
    refine Eq.trans (b := o1.book) ?_ (by exact e1)
    split_ifs at h2
    · exact book_withP h2
    · cases h2; rfl
  case setGyroBias =>
    simp only [setGyroBias, Res.bind_eq_ok] at h
    obtain ⟨j, -, x, -, o1, h1, h2⟩ := h
    have e1 := book_pushState h1
    refine Eq.trans (b := o1.book) ?_ (by exact e1)
    split_ifs at h2
    · exact book_withP h2
    · cases h2; rfl
  case setStateUnmodeledWrench =>
    simp only [setStateUnmodeledWrench, Res.bind_eq_ok] at h
    obtain ⟨j, -, x, -, o1, h1, h2⟩ := h
    have e1 := book_pushState h1
    refine Eq.trans (b := o1.book) ?_ (by exact e1)
    split_ifs at h2
    · exact book_withP h2
    · cases h2; rfl
  case setStateVector =>
    simp only [setStateVector, Res.bind_eq_ok] at h
    obtain ⟨o1, h1, o2, h2, h3⟩ := h
    have e1 := (book_updateKine h2).trans (book_pushState h1)
    refine Eq.trans (b := o2.book) ?_ (by exact e1)
    split_ifs at h3
    · exact book_resetStateCovarianceMat h3
    · cases h3; rfl
  case setKinematicsInitCovarianceDefault =>
    unfold setKinematicsInitCovarianceDefault at h
    split_ifs at h
    cases h; rfl
  case resetStateCovarianceMat => exact book_resetStateCovarianceMat h
  case resetStateContactsCovMat => exact book_resetStateContactsCovMat h
  case resetStateContactCovMat => exact book_resetStateContactCovMat h
  case resetProcessCovarianceMat => exact book_resetProcessCovarianceMat h
  case resetProcessContactsCovMat => exact book_resetProcessContactsCovMat h
  case resetProcessContactCovMat => exact book_resetProcessContactCovMat h
  case getMeasurementVector =>
    obtain ⟨r, h1, h2⟩ := h
    cases h2
    simp only [getMeasurementVector, Res.bind_eq_ok] at h1
    obtain ⟨n, -, h⟩ := h1
    split_ifs at h
    · simp only [Res.bind_eq_ok] at h
      obtain ⟨_, -, _, -, _, -, _, -, h⟩ := h
      cases h; rfl
    · cases h; rfl

theorem book_data (op : Op) (hd : op.isData = true) (h : Op.exec o op = .ok o') : o'.book = o.startNewIteration.book := by
  cases op <;> simp only [Op.isData, reduceCtorEq] at hd <;> clear hd <;> simp only [Op.exec] at h
  any_goals (cases h; rfl)
  case setInertiaMatrix =>
    simp only [setInertiaMatrix, Res.bind_eq_ok] at h
    obtain ⟨_, -, h⟩ := h
    cases h; rfl
  case setInertiaVector =>
    simp only [setInertiaVector, Res.bind_eq_ok] at h
    obtain ⟨_, -, h⟩ := h
    split_ifs at h
    · rw [Res.bind_eq_ok] at h
      obtain ⟨_, -, h⟩ := h
      cases h; rfl
    · cases h; rfl
  case setCenterOfMass2 =>
    simp only [setCenterOfMass2, Res.bind_eq_ok] at h
    obtain ⟨_, -, h⟩ := h
    cases h; rfl
  case setCenterOfMass =>
    simp only [setCenterOfMass, Res.bind_eq_ok] at h
    obtain ⟨_, -, h⟩ := h
    split_ifs at h
    · simp only [Res.bind_eq_ok] at h
      obtain ⟨_, -, _, -, _, -, h⟩ := h
      cases h; rfl
    · cases h; rfl
  case setAngularMomentum =>
    simp only [setAngularMomentum, Res.bind_eq_ok] at h
    obtain ⟨_, -, h⟩ := h
    cases h; rfl

/-- `update()` with new data: only the places of the sensors in the measurement vector change, and the time. -/
theorem book_update (h : o.update = .ok o') (hk : o.kEst ≠ o.kData) : ∃ imus contacts,
    List.Forall₂ (fun m m' => ∃ j, m' = { m with measIndex := j }) o.imus imus ∧
    List.Forall₂ (fun m m' => ∃ j, m' = { m with measIndex := j }) o.contacts contacts ∧
    o'.book = { o.book with imus := imus, contacts := contacts, kEst := o.kEst + 1 } := by
  rw [update, if_pos hk] at h
  simp only [Res.bind_eq_ok] at h
  obtain ⟨⟨o1, y, cov⟩, h1, e, -, h3⟩ := h
  obtain ⟨imus, contacts, abs, m, mt, rfl, hi, hc, ha⟩ := buildMeasurement_ok h1
  refine ⟨imus, contacts, hi, hc, ?_⟩
  simp only [afterFilter, Res.bind_eq_ok] at h3
  obtain ⟨x, -, o2, h4, h5⟩ := h3
  have e2 := book_updateKine h4
  have e1 : o'.book = o2.book := by
    split_ifs at h5
    · exact book_estimateAccelerations h5
    · cases h5; rfl
  rw [e1, e2]
  simp only [book, ha]

end Observer
end StateObs.KO
