import Verif.KO.InputSpec
/-!
# Which calls change the inputs of the dynamics
-/

namespace StateObs.KO
open StateObs Matrix Rot Kine KF

variable {nc ni : ℕ} {o o' : Observer}

/-- The inputs of the dynamics and the times they were given at. -/
structure Inputs where
  com : Option (V3 × Int)
  comd : Option (V3 × Int)
  comdd : Option (V3 × Int)
  sigma : Option (V3 × Int)
  sigmad : Option (V3 × Int)
  inertia : Option (M3 × Int)
  inertiad : Option (M3 × Int)

/-- The inputs of an observer. -/
def Observer.inputs (o : Observer) : Inputs := ⟨o.com, o.comd, o.comdd, o.sigma, o.sigmad, o.inertia, o.inertiad⟩

namespace Observer

theorem inputs_withP {f : DMat → Res DMat} (e : o.withP f = .ok o') : o'.inputs = o.inputs := by rw [withP_eq e]; rfl

theorem inputs_withQ {f : DMat → Res DMat} (e : o.withQ f = .ok o') : o'.inputs = o.inputs := by rw [withQ_eq e]; rfl

theorem inputs_pushState (h : o.pushState = .ok o') : o'.inputs = o.inputs := by
  simp only [pushState, Res.bind_eq_ok] at h
  obtain ⟨e1, -, h2⟩ := h
  cases h2; rfl

theorem inputs_updateKine (h : o.updateKine = .ok o') : o'.inputs = o.inputs := by
  simp only [updateKine, Res.bind_eq_ok] at h
  obtain ⟨s, -, k, -, h2⟩ := h
  cases h2; rfl

theorem inputs_estimateAccelerations (h : o.estimateAccelerations = .ok o') : o'.inputs = o.inputs := by
  simp only [estimateAccelerations, Res.bind_eq_ok] at h
  obtain ⟨_, -, _, -, h⟩ := h
  cases h; rfl

theorem inputs_resetStateContactCovMat {n : ℕ} (h : o.resetStateContactCovMat n = .ok o') : o'.inputs = o.inputs := by
  unfold resetStateContactCovMat at h
  split at h
  · cases h
  · rw [Res.bind_eq_ok] at h
    obtain ⟨_, -, h⟩ := h
    exact inputs_withP h

theorem inputs_resetStateContactsCovMat (h : o.resetStateContactsCovMat = .ok o') : o'.inputs = o.inputs := by
  refine Res.foldlM_inv (fun q => q.inputs = o.inputs) (fun b a b' hb e => ?_) _ _ _ h rfl
  simp only [resetStateContactIfSet, Res.bind_eq_ok] at e
  obtain ⟨c, -, e⟩ := e
  split_ifs at e
  · exact (inputs_resetStateContactCovMat e).trans hb
  · cases e; exact hb

theorem inputs_resetStateCovarianceMat (h : o.resetStateCovarianceMat = .ok o') : o'.inputs = o.inputs := by
  simp only [resetStateCovarianceMat, Res.bind_eq_ok] at h
  obtain ⟨q1, h1, q2, h2, q3, h3, h4⟩ := h
  refine (inputs_resetStateContactsCovMat h4).trans ((inputs_withP h3).trans (Eq.trans ?_ (inputs_withP h1)))
  refine Res.foldlM_inv (fun q => q.inputs = q1.inputs) (fun b a b' hb e => ?_) _ _ _ h2 rfl
  simp only [resetStateGyroBiasIfTime, Res.bind_eq_ok] at e
  obtain ⟨c, -, e⟩ := e
  split_ifs at e
  · exact (inputs_withP e).trans hb
  · cases e; exact hb

theorem inputs_resetProcessContactCovMat {n : ℕ} (h : o.resetProcessContactCovMat n = .ok o') : o'.inputs = o.inputs := by
  simp only [resetProcessContactCovMat, Res.bind_eq_ok] at h
  obtain ⟨_, -, _, -, _, -, h⟩ := h
  exact inputs_withQ h

theorem inputs_resetProcessContactsCovMat (h : o.resetProcessContactsCovMat = .ok o') : o'.inputs = o.inputs := by
  refine Res.foldlM_inv (fun q => q.inputs = o.inputs) (fun b a b' hb e => ?_) _ _ _ h rfl
  simp only [resetProcessContactIfSet, Res.bind_eq_ok] at e
  obtain ⟨c, -, e⟩ := e
  split_ifs at e
  · exact (inputs_resetProcessContactCovMat e).trans hb
  · cases e; exact hb

theorem inputs_resetProcessCovarianceMat (h : o.resetProcessCovarianceMat = .ok o') : o'.inputs = o.inputs := by
  simp only [resetProcessCovarianceMat, Res.bind_eq_ok] at h
  obtain ⟨q1, h1, q2, h2, q3, h3, h4⟩ := h
  refine (inputs_resetProcessContactsCovMat h4).trans ((inputs_withQ h3).trans (Eq.trans ?_ (inputs_withQ h1)))
  exact Res.foldlM_inv (fun q => q.inputs = q1.inputs) (fun b a b' hb e => (inputs_withQ e).trans hb) _ _ _ h2 rfl

theorem inputs_inner (op : Op) (hd : op.isData = false) (hs : op.isSensor = false) (h : Op.exec o op = .ok o') : o'.inputs = o.inputs := by
  cases op <;> simp only [Op.isData, Op.isSensor, reduceCtorEq] at hd hs <;> clear hd hs <;> simp only [Op.exec, Res.bind_eq_ok] at h
  any_goals (cases h; rfl)
  any_goals exact inputs_withP h
  any_goals exact inputs_withQ h
  case setKinematicsInitCovarianceDefault =>
    unfold setKinematicsInitCovarianceDefault at h
    split_ifs at h
    cases h; rfl
  case estimateAccelerations => exact inputs_estimateAccelerations h
  case setStateKinematics =>
    simp only [setStateKinematics, Res.bind_eq_ok] at h
    obtain ⟨_, -, r, -, x, -, x2, -, o1, h1, h2⟩ := h
    have e1 := inputs_pushState h1
    refine Eq.trans (b := o1.inputs) ?_ (by exact e1)
    split_ifs at h2
    · exact inputs_withP h2
    · cases h2; rfl
  case setGyroBias =>
    simp only [setGyroBias, Res.bind_eq_ok] at h
    obtain ⟨j, -, x, -, o1, h1, h2⟩ := h
    have e1 := inputs_pushState h1
    refine Eq.trans (b := o1.inputs) ?_ (by exact e1)
    split_ifs at h2
    · exact inputs_withP h2
    · cases h2; rfl
  case setStateUnmodeledWrench =>
    simp only [setStateUnmodeledWrench, Res.bind_eq_ok] at h
    obtain ⟨j, -, x, -, o1, h1, h2⟩ := h
    have e1 := inputs_pushState h1
    refine Eq.trans (b := o1.inputs) ?_ (by exact e1)
    split_ifs at h2
    · exact inputs_withP h2
    · cases h2; rfl
  case setStateVector =>
    simp only [setStateVector, Res.bind_eq_ok] at h
    obtain ⟨o1, h1, o2, h2, h3⟩ := h
    have e1 := (inputs_updateKine h2).trans (inputs_pushState h1)
    refine Eq.trans (b := o2.inputs) ?_ (by exact e1)
    split_ifs at h3
    · exact inputs_resetStateCovarianceMat h3
    · cases h3; rfl
  case resetStateCovarianceMat => exact inputs_resetStateCovarianceMat h
  case resetStateContactsCovMat => exact inputs_resetStateContactsCovMat h
  case resetStateContactCovMat => exact inputs_resetStateContactCovMat h
  case resetProcessCovarianceMat => exact inputs_resetProcessCovarianceMat h
  case resetProcessContactsCovMat => exact inputs_resetProcessContactsCovMat h
  case resetProcessContactCovMat => exact inputs_resetProcessContactCovMat h
  case getMeasurementVector =>
    obtain ⟨r, h1, h2⟩ := h
    cases h2
    simp only [getMeasurementVector, Res.bind_eq_ok] at h1
    obtain ⟨n, -, h⟩ := h1
    split_ifs at h
    · simp only [Res.bind_eq_ok] at h
      obtain ⟨_, -, _, -, _, -, _, -, h⟩ := h
      cases h; rfl
    · cases h; rfl

theorem inputs_start (o : Observer) : o.startNewIteration.inputs = o.inputs := by
  unfold startNewIteration
  split_ifs <;> rfl

theorem inputs_other (op : Op) (hd : op.isData = false) (h : Op.exec o op = .ok o') : o'.inputs = o.inputs := by
  by_cases hs : op.isSensor = false
  · exact inputs_inner op hd hs h
  cases op <;> simp only [Op.isSensor, reduceCtorEq, not_true_eq_false] at hs <;> clear hd hs <;> simp only [Op.exec, Res.bind_eq_ok] at h
  any_goals (cases h; rfl)
  case update =>
    rw [update] at h
    split_ifs at h with hk
    · simp only [Res.bind_eq_ok] at h
      obtain ⟨⟨o1, y, cov⟩, h1, e, -, h3⟩ := h
      obtain ⟨imus, contacts, abs, m, mt, rfl, hi, hc, ha⟩ := buildMeasurement_ok h1
      simp only [afterFilter, Res.bind_eq_ok] at h3
      obtain ⟨x, -, o2, h4, h5⟩ := h3
      have e2 := inputs_updateKine h4
      have e1 : o'.inputs = o2.inputs := by
        split_ifs at h5
        · exact inputs_estimateAccelerations h5
        · cases h5; rfl
      rw [e1, e2]; rfl
    · cases h; rfl
  case setIMU =>
    rw [← inputs_start o]
    obtain ⟨r, h1, h2⟩ := h
    cases h2
    simp only [setIMU, Res.bind_eq_ok] at h1
    obtain ⟨n, -, m, -, k, -, h⟩ := h1
    cases h; rfl
  case updateContactWithWrenchSensor =>
    rw [← inputs_start o]
    simp only [updateContactWithWrenchSensor, Res.bind_eq_ok] at h
    obtain ⟨c, -, k, -, h⟩ := h
    cases h; rfl
  case updateContactWithNoSensor =>
    rw [← inputs_start o]
    simp only [updateContactWithNoSensor, Res.bind_eq_ok] at h
    obtain ⟨c, -, k, -, h⟩ := h
    cases h; rfl
  case setAbsolutePoseSensor =>
    cases h
    rw [← inputs_start o]; rfl
  case addContact =>
    obtain ⟨r, h1, h2⟩ := h
    cases h2
    simp only [addContact, Res.bind_eq_ok] at h1
    obtain ⟨_, -, m, hm, _, -, c, hc, _, hs, si, hsi, st, -, r0, hr0, x1, hx1, o1, ho1, o2, ho2, h⟩ := h1
    cases h
    have := (inputs_withQ ho2).trans (inputs_withP ho1)
    exact this
  case removeContact =>
    simp only [removeContact, Res.bind_eq_ok] at h
    obtain ⟨c, -, _, -, h⟩ := h
    cases h; rfl

theorem inputs_construct (h : construct nc ni = .ok o) : o.inputs = (init nc ni).inputs := by
  simp only [construct, Res.bind_eq_ok] at h
  obtain ⟨e1, -, e2, -, e3, -, e4, -, o1, h1, o2, h2, h3⟩ := h
  have := (inputs_updateKine h3).trans ((inputs_resetProcessCovarianceMat h2).trans (inputs_resetStateCovarianceMat (by exact h1)))
  exact this

end Observer


open Observer

/-! ## The data calls -/

theorem ix_ok {α : Type} {i : Option (α × Int)} {a : α × Int} (h : ix i = .ok a) : i = some a := by
  unfold ix at h
  cases i with
  | none => cases h
  | some b => cases h; rfl

theorem derived_ok {α : Type} [AddCommGroup α] [Module ℝ α] {o : Observer} {i d e : Option (α × Int)} {v : α} (h : o.derived i d v = .ok e) :
    ∃ w t, i = some (w, t) ∧ ((t < o.kData ∧ o.dt * ((o.kData - t : Int) : ℝ) ≠ 0 ∧ e = some ((1 / (o.dt * ((o.kData - t : Int) : ℝ))) • (v - w), o.kData)) ∨ (o.kData ≤ t ∧ e = d)) := by
  unfold derived at h
  rw [Res.bind_eq_ok] at h
  obtain ⟨⟨w, t⟩, h1, h2⟩ := h
  have hi : i = some (w, t) := by
    unfold ix at h1
    cases i with
    | none => cases h1
    | some a => cases h1; rfl
  refine ⟨w, t, hi, ?_⟩
  dsimp only at h2
  split_ifs at h2 with ht
  · rw [Res.bind_eq_ok] at h2
    obtain ⟨e1, h3, h4⟩ := h2
    unfold derivate at h3
    split_ifs at h3 with h0
    cases h3; cases h4
    exact .inl ⟨ht, h0, rfl⟩
  · cases h2
    exact .inr ⟨not_lt.1 ht, rfl⟩

theorem sym6_eq (v : V6) : sym6 v = symmetric v := by
  ext i j
  fin_cases i <;> fin_cases j <;> rfl

/-- The times of the inputs. -/
def stamped {α : Type} (i : Option (α × Int)) (k : Int) : Prop := ∃ v, i = some (v, k)

/-- Each call that gives an input stores it with the data time. -/
theorem stored_com {op : Op} {c : V3} (hc : op.com? = some c) (h : op.exec o = .ok o') : o'.com = some (c, o'.kData) := by
  cases op <;> simp only [Op.com?, reduceCtorEq, Option.some.injEq] at hc <;> subst hc <;> simp only [Op.exec] at h
  case setCenterOfMass3 => cases h; rfl
  case setCenterOfMass2 =>
    simp only [setCenterOfMass2, Res.bind_eq_ok] at h
    obtain ⟨_, -, h⟩ := h
    cases h; rfl
  case setCenterOfMass =>
    simp only [setCenterOfMass, Res.bind_eq_ok] at h
    obtain ⟨_, -, h⟩ := h
    split_ifs at h
    · simp only [Res.bind_eq_ok] at h
      obtain ⟨_, -, _, -, _, -, h⟩ := h
      cases h; rfl
    · cases h; rfl

theorem stored_momentum {op : Op} {c : V3} (hc : op.momentum? = some c) (h : op.exec o = .ok o') : o'.sigma = some (c, o'.kData) := by
  cases op <;> simp only [Op.momentum?, reduceCtorEq, Option.some.injEq] at hc <;> subst hc <;> simp only [Op.exec] at h
  case setAngularMomentum2 => cases h; rfl
  case setAngularMomentum =>
    simp only [setAngularMomentum, Res.bind_eq_ok] at h
    obtain ⟨_, -, h⟩ := h
    cases h; rfl

theorem stored_inertia {op : Op} {c : M3} (hc : op.inertia? = some c) (h : op.exec o = .ok o') : o'.inertia = some (c, o'.kData) := by
  cases op <;> simp only [Op.inertia?, reduceCtorEq, Option.some.injEq] at hc <;> subst hc <;> simp only [Op.exec] at h
  case setInertiaMatrix2 => cases h; rfl
  case setInertiaMatrix =>
    simp only [setInertiaMatrix, Res.bind_eq_ok] at h
    obtain ⟨_, -, h⟩ := h
    cases h; rfl
  case setInertiaVector2 => cases h; rw [← sym6_eq]; rfl
  case setInertiaVector =>
    simp only [setInertiaVector, Res.bind_eq_ok] at h
    obtain ⟨_, -, h⟩ := h
    rw [← sym6_eq]
    split_ifs at h
    · rw [Res.bind_eq_ok] at h
      obtain ⟨_, -, h⟩ := h
      cases h; rfl
    · cases h; rfl

theorem start_inputs (o : Observer) : o.startNewIteration.inputs = o.inputs := by
  unfold startNewIteration
  split_ifs <;> rfl

theorem start_dt (o : Observer) : o.startNewIteration.dt = o.dt := by
  unfold startNewIteration
  split_ifs <;> rfl

/-- A call that does not give an input leaves it, and its derivatives. -/
theorem kept_com {op : Op} (hc : op.com? = none) (h : op.exec o = .ok o') : o'.com = o.com ∧ o'.comd = o.comd ∧ o'.comdd = o.comdd := by
  have key : o'.com = o.startNewIteration.com ∧ o'.comd = o.startNewIteration.comd ∧ o'.comdd = o.startNewIteration.comdd := by
    cases hd : op.isData with
    | false =>
      have := inputs_other op hd h
      rw [← start_inputs o] at this
      exact ⟨congrArg Inputs.com this, congrArg Inputs.comd this, congrArg Inputs.comdd this⟩
    | true =>
      cases op <;> simp only [Op.isData, reduceCtorEq] at hd <;> simp only [Op.com?, reduceCtorEq] at hc <;> simp only [Op.exec] at h
      any_goals (cases h; exact ⟨rfl, rfl, rfl⟩)
      case setInertiaMatrix =>
        simp only [setInertiaMatrix, Res.bind_eq_ok] at h
        obtain ⟨_, -, h⟩ := h
        cases h; exact ⟨rfl, rfl, rfl⟩
      case setInertiaVector =>
        simp only [setInertiaVector, Res.bind_eq_ok] at h
        obtain ⟨_, -, h⟩ := h
        split_ifs at h
        · rw [Res.bind_eq_ok] at h
          obtain ⟨_, -, h⟩ := h
          cases h; exact ⟨rfl, rfl, rfl⟩
        · cases h; exact ⟨rfl, rfl, rfl⟩
      case setAngularMomentum =>
        simp only [setAngularMomentum, Res.bind_eq_ok] at h
        obtain ⟨_, -, h⟩ := h
        cases h; exact ⟨rfl, rfl, rfl⟩
  have e := start_inputs o
  exact ⟨key.1.trans (congrArg Inputs.com e), key.2.1.trans (congrArg Inputs.comd e), key.2.2.trans (congrArg Inputs.comdd e)⟩

theorem kept_momentum {op : Op} (hc : op.momentum? = none) (h : op.exec o = .ok o') : o'.sigma = o.sigma ∧ o'.sigmad = o.sigmad := by
  have key : o'.sigma = o.startNewIteration.sigma ∧ o'.sigmad = o.startNewIteration.sigmad := by
    cases hd : op.isData with
    | false =>
      have := inputs_other op hd h
      rw [← start_inputs o] at this
      exact ⟨congrArg Inputs.sigma this, congrArg Inputs.sigmad this⟩
    | true =>
      cases op <;> simp only [Op.isData, reduceCtorEq] at hd <;> simp only [Op.momentum?, reduceCtorEq] at hc <;> simp only [Op.exec] at h
      any_goals (cases h; exact ⟨rfl, rfl⟩)
      case setInertiaMatrix =>
        simp only [setInertiaMatrix, Res.bind_eq_ok] at h
        obtain ⟨_, -, h⟩ := h
        cases h; exact ⟨rfl, rfl⟩
      case setInertiaVector =>
        simp only [setInertiaVector, Res.bind_eq_ok] at h
        obtain ⟨_, -, h⟩ := h
        split_ifs at h
        · rw [Res.bind_eq_ok] at h
          obtain ⟨_, -, h⟩ := h
          cases h; exact ⟨rfl, rfl⟩
        · cases h; exact ⟨rfl, rfl⟩
      case setCenterOfMass2 =>
        simp only [setCenterOfMass2, Res.bind_eq_ok] at h
        obtain ⟨_, -, h⟩ := h
        cases h; exact ⟨rfl, rfl⟩
      case setCenterOfMass =>
        simp only [setCenterOfMass, Res.bind_eq_ok] at h
        obtain ⟨_, -, h⟩ := h
        split_ifs at h
        · simp only [Res.bind_eq_ok] at h
          obtain ⟨_, -, _, -, _, -, h⟩ := h
          cases h; exact ⟨rfl, rfl⟩
        · cases h; exact ⟨rfl, rfl⟩
  have e := start_inputs o
  exact ⟨key.1.trans (congrArg Inputs.sigma e), key.2.trans (congrArg Inputs.sigmad e)⟩

theorem kept_inertia {op : Op} (hc : op.inertia? = none) (h : op.exec o = .ok o') : o'.inertia = o.inertia ∧ o'.inertiad = o.inertiad := by
  have key : o'.inertia = o.startNewIteration.inertia ∧ o'.inertiad = o.startNewIteration.inertiad := by
    cases hd : op.isData with
    | false =>
      have := inputs_other op hd h
      rw [← start_inputs o] at this
      exact ⟨congrArg Inputs.inertia this, congrArg Inputs.inertiad this⟩
    | true =>
      cases op <;> simp only [Op.isData, reduceCtorEq] at hd <;> simp only [Op.inertia?, reduceCtorEq] at hc <;> simp only [Op.exec] at h
      any_goals (cases h; exact ⟨rfl, rfl⟩)
      case setAngularMomentum =>
        simp only [setAngularMomentum, Res.bind_eq_ok] at h
        obtain ⟨_, -, h⟩ := h
        cases h; exact ⟨rfl, rfl⟩
      case setCenterOfMass2 =>
        simp only [setCenterOfMass2, Res.bind_eq_ok] at h
        obtain ⟨_, -, h⟩ := h
        cases h; exact ⟨rfl, rfl⟩
      case setCenterOfMass =>
        simp only [setCenterOfMass, Res.bind_eq_ok] at h
        obtain ⟨_, -, h⟩ := h
        split_ifs at h
        · simp only [Res.bind_eq_ok] at h
          obtain ⟨_, -, _, -, _, -, h⟩ := h
          cases h; exact ⟨rfl, rfl⟩
        · cases h; exact ⟨rfl, rfl⟩
  have e := start_inputs o
  exact ⟨key.1.trans (congrArg Inputs.inertia e), key.2.trans (congrArg Inputs.inertiad e)⟩

/-! ## Along a history -/

theorem inputs_construct_clock (h : construct nc ni = .ok o) : o.kEst = 0 ∧ o.kData = 0 := by
  simp only [construct, Res.bind_eq_ok] at h
  obtain ⟨e1, -, e2, -, e3, -, e4, -, o1, h1, o2, h2, h3⟩ := h
  have := (book_updateKine h3).trans ((book_resetProcessCovarianceMat h2).trans (book_resetStateCovarianceMat (by exact h1)))
  exact ⟨congrArg Book.kEst this, congrArg Book.kData this⟩

/-- The clock of the observer is the one of the history. -/
theorem clock_run : ∀ (l : List Op) (c : ℕ × Bool) (o o' : Observer), Inv nc ni o → o.kEst = c.1 → o.kData = c.1 + (if c.2 then 1 else 0) → Op.run o l = .ok o' →
    o'.kEst = (l.foldl tick c).1 ∧ o'.kData = (l.foldl tick c).1 + if (l.foldl tick c).2 then 1 else 0 := by
  intro l
  induction l with
  | nil => intro c o o' _ h1 h2 e; cases e; exact ⟨h1, h2⟩
  | cons op l ih =>
    intro c o o' hi h1 h2 e
    simp only [Op.run, List.foldlM_cons, Res.bind_eq_ok] at e
    obtain ⟨o1, e1, e2⟩ := e
    have hi1 := inv_exec op hi e1
    refine ih (tick c op) o1 o' hi1 ?_ ?_ e2
    all_goals
      unfold tick
      by_cases hu : op = .update
      · subst hu
        rw [if_pos rfl]
        simp only [Op.exec] at e1
        by_cases hk : o.kEst = o.kData
        · rw [update, if_neg (by simpa using hk)] at e1
          cases e1
          have : c.2 = false := by
            by_contra hc
            rw [Bool.not_eq_false] at hc
            rw [hc, if_pos rfl] at h2
            omega
          rw [this]
          simp only [this, Bool.false_eq_true, if_false] at h2 ⊢
          first | exact h1 | exact h2
        · have hb : c.2 = true := by
            by_contra hc
            rw [Bool.not_eq_true] at hc
            rw [hc] at h2
            simp at h2
            omega
          obtain ⟨_, _, -, -, e⟩ := book_update e1 hk
          have e3 := congrArg Book.kEst e
          have e4 := congrArg Book.kData e
          simp only [book] at e3 e4
          rw [hb, if_pos rfl] at h2
          rw [hb, if_pos rfl]
          simp only [Bool.false_eq_true, if_false]
          push_cast
          omega
      · rw [if_neg hu]
        obtain ⟨k1, k2, k3⟩ := clock_exec hi op e1 hu
        by_cases hb : op.BringsData
        · have := k2 hb
          rw [if_pos hb]
          simp only [if_true]
          omega
        · have := k3 hb
          rw [if_neg hb]
          first | exact k1.trans h1 | exact this.trans h2

theorem clock_reachable {l : List Op} (h : Reachable nc ni l o) : o.kEst = (clockOf l).1 ∧ o.kData = iteration l := by
  obtain ⟨o0, h0, h1⟩ := h
  have hi := inv_construct h0
  have e := inputs_construct_clock h0
  have := clock_run l (0, false) o0 o hi e.1 e.2 h1
  refine ⟨this.1, this.2.trans ?_⟩
  unfold iteration clockOf
  push_cast
  rfl

theorem reachable_cut {l1 l2 : List Op} {op : Op} (h : Reachable nc ni (l1 ++ op :: l2) o) :
    ∃ o1 o2, Reachable nc ni l1 o1 ∧ op.exec o1 = .ok o2 ∧ Reachable nc ni (l1 ++ [op]) o2 ∧ Op.run o2 l2 = .ok o := by
  obtain ⟨o0, h0, h1⟩ := h
  simp only [Op.run, List.foldlM_append, List.foldlM_cons, Res.bind_eq_ok] at h1
  obtain ⟨o1, e1, o2, e2, e3⟩ := h1
  refine ⟨o1, o2, ⟨o0, h0, e1⟩, e2, ⟨o0, h0, ?_⟩, e3⟩
  simp only [Op.run, List.foldlM_append, List.foldlM_cons, List.foldlM_nil, Res.bind_eq_ok]
  exact ⟨o1, e1, o2, e2, rfl⟩

theorem kept_run {β : Type} (g : Observer → β) (f : Op → Prop) (step : ∀ (o o' : Observer) (op : Op), f op → op.exec o = .ok o' → g o' = g o) :
    ∀ (l : List Op) (o o' : Observer), (∀ q ∈ l, f q) → Op.run o l = .ok o' → g o' = g o := by
  intro l
  induction l with
  | nil => intro o o' _ e; cases e; rfl
  | cons op l ih =>
    intro o o' hl e
    simp only [Op.run, List.foldlM_cons, Res.bind_eq_ok] at e
    obtain ⟨o1, e1, e2⟩ := e
    rw [ih _ _ (fun q hq => hl q (.tail _ hq)) e2, step _ _ _ (hl op (.head _)) e1]

/-- The value given last is stored with the iteration it was given in. -/
theorem given_stored {α : Type} (f : Op → Option α) (g : Observer → Option (α × Int))
    (st : ∀ (o o' : Observer) (op : Op) (v : α), f op = some v → op.exec o = .ok o' → g o' = some (v, o'.kData))
    (kp : ∀ (o o' : Observer) (op : Op), f op = none → op.exec o = .ok o' → g o' = g o)
    {l : List Op} (h : Reachable nc ni l o) {v : α} {k : ℕ} (hg : GivenLast f l v k) : g o = some (v, (k : Int)) := by
  obtain ⟨l1, op, l2, rfl, hv, hn, rfl⟩ := hg
  obtain ⟨o1, o2, -, e2, e3, e4⟩ := reachable_cut h
  rw [kept_run g (fun q => f q = none) kp l2 o2 o hn e4, st o1 o2 op v hv e2, (clock_reachable e3).2]

theorem given_com {l : List Op} (h : Reachable nc ni l o) {v : V3} {k : ℕ} (hg : GivenLast Op.com? l v k) : o.com = some (v, (k : Int)) :=
  given_stored Op.com? (·.com) (fun _ _ _ _ hv e => stored_com hv e) (fun _ _ _ hv e => (kept_com hv e).1) h hg

theorem given_momentum {l : List Op} (h : Reachable nc ni l o) {v : V3} {k : ℕ} (hg : GivenLast Op.momentum? l v k) : o.sigma = some (v, (k : Int)) :=
  given_stored Op.momentum? (·.sigma) (fun _ _ _ _ hv e => stored_momentum hv e) (fun _ _ _ hv e => (kept_momentum hv e).1) h hg

theorem given_inertia {l : List Op} (h : Reachable nc ni l o) {v : M3} {k : ℕ} (hg : GivenLast Op.inertia? l v k) : o.inertia = some (v, (k : Int)) :=
  given_stored Op.inertia? (·.inertia) (fun _ _ _ _ hv e => stored_inertia hv e) (fun _ _ _ hv e => (kept_inertia hv e).1) h hg

theorem kData_exec {op : Op} {o o' : Observer} (hi : Inv nc ni o) (h : op.exec o = .ok o') : o.kData ≤ o'.kData := by
  have ht := hi.2.time
  by_cases hu : op = .update
  · subst hu
    simp only [Op.exec] at h
    by_cases hk : o.kEst = o.kData
    · rw [update, if_neg (by simpa using hk)] at h
      cases h; rfl
    · obtain ⟨_, _, -, -, e⟩ := book_update h hk
      exact (congrArg Book.kData e).ge
  · obtain ⟨k1, k2, k3⟩ := clock_exec hi op h hu
    by_cases hb : op.BringsData
    · have := k2 hb; omega
    · have := k3 hb; omega

/-- The centre of mass is not stored with a time to come, and its velocity is stored with the same time. -/
def ComTime (o : Observer) : Prop := ∀ c t, o.com = some (c, t) → t ≤ o.kData ∧ ∃ d, o.comd = some (d, t)

theorem ComTime.exec {op : Op} {o o' : Observer} (hn : Inv nc ni o) (hi : ComTime o) (h : op.exec o = .ok o') : ComTime o' := by
  have hk := kData_exec hn h
  cases hc : op.com? with
  | none =>
    obtain ⟨e1, e2, -⟩ := kept_com hc h
    unfold ComTime
    rw [e1, e2]
    exact fun c t e => ⟨(hi c t e).1.trans hk, (hi c t e).2⟩
  | some c =>
    intro c' t hct
    have hs := stored_com hc h
    rw [hs] at hct
    cases hct
    refine ⟨le_rfl, ?_⟩
    have e := start_inputs o
    cases op <;> simp only [Op.com?, reduceCtorEq, Option.some.injEq] at hc <;> subst hc <;> simp only [Op.exec] at h
    case setCenterOfMass3 => cases h; exact ⟨_, rfl⟩
    case setCenterOfMass2 =>
      simp only [setCenterOfMass2, Res.bind_eq_ok] at h
      obtain ⟨_, -, h⟩ := h
      cases h; exact ⟨_, rfl⟩
    case setCenterOfMass =>
      simp only [setCenterOfMass, Res.bind_eq_ok] at h
      obtain ⟨⟨c0, t0⟩, h0, h⟩ := h
      split_ifs at h with ht
      · simp only [Res.bind_eq_ok] at h
        obtain ⟨_, -, _, -, _, -, h⟩ := h
        cases h; exact ⟨_, rfl⟩
      · have hc0 : o.startNewIteration.com = some (c0, t0) := ix_ok h0
        rw [show o.startNewIteration.com = o.com from congrArg Inputs.com e] at hc0
        obtain ⟨h1, d, h2⟩ := hi c0 t0 hc0
        cases h
        dsimp only at hk ht ⊢
        obtain rfl : t0 = o.startNewIteration.kData := by omega
        exact ⟨d, (congrArg Inputs.comd e).trans h2⟩

theorem comTime_reachable {l : List Op} (h : Reachable nc ni l o) : ComTime o := by
  obtain ⟨o0, h0, h1⟩ := h
  have hb : ComTime o0 := by
    intro c t hc
    have := congrArg Inputs.com (inputs_construct h0)
    rw [show o0.inputs.com = o0.com from rfl, hc] at this
    cases this
  have : ∀ (l : List Op) (o o' : Observer), Inv nc ni o → ComTime o → Op.run o l = .ok o' → ComTime o' := by
    intro l
    induction l with
    | nil => intro o o' _ h e; cases e; exact h
    | cons op l ih =>
      intro o o' hi h e
      simp only [Op.run, List.foldlM_cons, Res.bind_eq_ok] at e
      obtain ⟨o1, e1, e2⟩ := e
      exact ih o1 o' (inv_exec op hi e1) (h.exec hi e1) e2
  exact this l o0 o (inv_construct h0) hb h1

end StateObs.KO
