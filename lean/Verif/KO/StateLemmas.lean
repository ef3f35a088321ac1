import Verif.KO.StateSpec
import Verif.KO.Live
import Verif.KO.Frame
/-!
# Lemmas for C103, C104
-/

namespace StateObs.KO
open StateObs Matrix Rot Kine KF
open Observer

variable {nc ni : ℕ} {o o' : Observer}

theorem setSeg_at1 {n i : ℕ} {v v' : DVec} {w : Fin n → ℝ} (h : v.setSeg n i w = .ok v') :
    v'.size = v.size ∧ (∀ j, j < i ∨ i + n ≤ j → at1 v' j = at1 v j) ∧ ∀ j (hj : j < n), at1 v' (i + j) = w ⟨j, hj⟩ := by
  obtain ⟨v2, e, h1⟩ := setSeg_live (v := v) (i := i) w (DVec.setSeg_ok h).1
  rw [h] at e
  cases e
  exact h1

theorem setList_at1 {n i : ℕ} {v v' : DVec} {l : List ℝ} (h : v.setList n i l = .ok v') :
    v'.size = v.size ∧ l.length = n ∧ i + n ≤ v.size ∧ (∀ j, j < i ∨ i + n ≤ j → at1 v' j = at1 v j) ∧ ∀ j, j < n → at1 v' (i + j) = l.getD j 0 := by
  have h0 := h
  unfold DVec.setList at h
  split_ifs at h with hl
  obtain ⟨v2, e, h1, h2, h3⟩ := setList_live (v := v) (i := i) hl (DVec.setSeg_ok h).1
  rw [h0] at e
  cases e
  exact ⟨h1, hl, (DVec.setSeg_ok h).1, h2, h3⟩

theorem seg_iff {n i : ℕ} {v : DVec} {w : Fin n → ℝ} (h : i + n ≤ v.size) : v.seg n i = .ok w ↔ ∀ j : Fin n, at1 v (i + j) = w j := by
  rw [DVec.seg, dif_pos h, Res.ok.injEq, funext_iff]
  refine forall_congr' fun j => ?_
  rw [at1, dif_pos (by have := j.2; omega)]

theorem is_iff (hi : Inv nc ni o) (c : Comp) (v : List ℝ) :
    c.Is o v ↔ Exists o ni c ∧ v.length = c.size ∧ ∀ j < c.size, at1 o.x (off ni c + j) = v.getD j 0 := by
  have hr : Exists o ni c → off ni c + c.size ≤ o.x.size := fun he => by
    have h3 := off_range (he.valid hi)
    have h4 := hi.2.xSize
    omega
  constructor
  · rintro ⟨i, s, h1, h2, rfl⟩
    obtain ⟨he, rfl⟩ := (start_eq hi c i).1 h1
    refine ⟨he, List.length_ofFn, fun j hj => ?_⟩
    rw [getD_ofFn _ hj]
    exact (seg_iff (hr he)).1 h2 ⟨j, hj⟩
  · rintro ⟨he, hl, h⟩
    refine ⟨off ni c, fun j => v.getD j 0, (start_eq hi c _).2 ⟨he, rfl⟩, (seg_iff (hr he)).2 fun j => h j j.2, ?_⟩
    refine List.ext_getElem (by simpa using hl) fun j h1 h2 => ?_
    simp [h1]

theorem is3 (hi : Inv nc ni o) {c : Comp} (h3 : c.size = 3) (v : V3) :
    c.Is o (coords v) ↔ Exists o ni c ∧ ∀ j (hj : j < 3), at1 o.x (off ni c + j) = v ⟨j, hj⟩ := by
  rw [is_iff hi, h3]
  refine and_congr_right fun _ => ⟨fun h j hj => ?_, fun h => ⟨rfl, fun j hj => ?_⟩⟩
  · rw [h.2 j hj]
    interval_cases j <;> rfl
  · rw [h j hj]
    interval_cases j <;> rfl

theorem is4 (hi : Inv nc ni o) {c : Comp} (h3 : c.size = 4) (q : Quat) :
    c.Is o (coeffs q) ↔ Exists o ni c ∧ at1 o.x (off ni c) = q.x ∧ at1 o.x (off ni c + 1) = q.y ∧ at1 o.x (off ni c + 2) = q.z ∧ at1 o.x (off ni c + 3) = q.w := by
  rw [is_iff hi, h3]
  refine and_congr_right fun _ => ⟨fun h => ⟨h.2 0 (by omega), h.2 1 (by omega), h.2 2 (by omega), h.2 3 (by omega)⟩, fun h => ⟨rfl, fun j hj => ?_⟩⟩
  obtain ⟨h0, h1, h2, h3⟩ := h
  interval_cases j
  · exact h0
  · exact h1
  · exact h2
  · exact h3

theorem isSet_contacts (h : o'.contacts = o.contacts) (n : ℕ) : IsSet o' n ↔ IsSet o n := by rw [IsSet, IsSet, h]

theorem exists_contacts (h : o'.contacts = o.contacts) (c : Comp) : Exists o' ni c ↔ Exists o ni c := by
  cases c <;> first | exact Iff.rfl | exact isSet_contacts h _

theorem kept_of (hi : Inv nc ni o) (hi' : Inv nc ni o') (c : Comp) (he : Exists o' ni c ↔ Exists o ni c)
    (h : Exists o ni c → ∀ j, off ni c ≤ j → j < off ni c + c.size → at1 o'.x j = at1 o.x j) : c.Kept o o' := by
  intro v
  rw [is_iff hi, is_iff hi', he]
  refine and_congr_right fun hc => and_congr_right fun _ => forall_congr' fun j => forall_congr' fun hj => ?_
  rw [h hc _ (by omega) (by omega)]

theorem pushState_x (h : o.pushState = .ok o') : o' = { o with ekf := o'.ekf } ∧ o'.ekf.x = some (o.x, o.kEst) ∧ o'.ekf.st = o.ekf.st := by
  simp only [pushState, Res.bind_eq_ok, Obs.setState] at h
  obtain ⟨e1, ⟨_, -, t, -, h1⟩, h2⟩ := h
  split_ifs at h1 <;> cases h1 <;> cases h2 <;> exact ⟨rfl, rfl, rfl⟩

/-- The state vector, the kinematics and the state of the filter. -/
def Observer.shown (o : Observer) : DVec × Kin × Option (DVec × Int) := (o.x, o.stateKin, o.ekf.x)

theorem shown_withP {f : DMat → Res DMat} (e : o.withP f = .ok o') : o'.shown = o.shown := by
  simp only [withP, Res.bind_eq_ok, KF.setStateCovariance] at e
  obtain ⟨P, -, e1, ⟨a, ha, h1⟩, h2⟩ := e
  cases h1; cases h2; rfl

theorem shown_withQ {f : DMat → Res DMat} (e : o.withQ f = .ok o') : o'.shown = o.shown := by
  simp only [withQ, Res.bind_eq_ok, KF.setQ] at e
  obtain ⟨P, -, e1, ⟨a, ha, h1⟩, h2⟩ := e
  cases h1; cases h2; rfl

theorem shown_resetStateContactCovMat {n : ℕ} (h : o.resetStateContactCovMat n = .ok o') : o'.shown = o.shown := by
  unfold resetStateContactCovMat at h
  split at h
  · cases h
  · rw [Res.bind_eq_ok] at h
    obtain ⟨_, -, h⟩ := h
    exact shown_withP h

theorem shown_resetStateContactsCovMat (h : o.resetStateContactsCovMat = .ok o') : o'.shown = o.shown := by
  refine Res.foldlM_inv (fun q => q.shown = o.shown) (fun b a b' hb e => ?_) _ _ _ h rfl
  simp only [resetStateContactIfSet, Res.bind_eq_ok] at e
  obtain ⟨c, -, e⟩ := e
  split_ifs at e
  · exact (shown_resetStateContactCovMat e).trans hb
  · cases e; exact hb

theorem shown_resetStateCovarianceMat (h : o.resetStateCovarianceMat = .ok o') : o'.shown = o.shown := by
  simp only [resetStateCovarianceMat, Res.bind_eq_ok] at h
  obtain ⟨q1, h1, q2, h2, q3, h3, h4⟩ := h
  refine (shown_resetStateContactsCovMat h4).trans ((shown_withP h3).trans (Eq.trans ?_ (shown_withP h1)))
  refine Res.foldlM_inv (fun q => q.shown = q1.shown) (fun b a b' hb e => ?_) _ _ _ h2 rfl
  simp only [resetStateGyroBiasIfTime, Res.bind_eq_ok] at e
  obtain ⟨c, -, e⟩ := e
  split_ifs at e
  · exact (shown_withP e).trans hb
  · cases e; exact hb

theorem shown_resetProcessContactCovMat {n : ℕ} (h : o.resetProcessContactCovMat n = .ok o') : o'.shown = o.shown := by
  simp only [resetProcessContactCovMat, Res.bind_eq_ok] at h
  obtain ⟨_, -, _, -, _, -, h⟩ := h
  exact shown_withQ h

theorem shown_resetProcessContactsCovMat (h : o.resetProcessContactsCovMat = .ok o') : o'.shown = o.shown := by
  refine Res.foldlM_inv (fun q => q.shown = o.shown) (fun b a b' hb e => ?_) _ _ _ h rfl
  simp only [resetProcessContactIfSet, Res.bind_eq_ok] at e
  obtain ⟨c, -, e⟩ := e
  split_ifs at e
  · exact (shown_resetProcessContactCovMat e).trans hb
  · cases e; exact hb

theorem shown_resetProcessCovarianceMat (h : o.resetProcessCovarianceMat = .ok o') : o'.shown = o.shown := by
  simp only [resetProcessCovarianceMat, Res.bind_eq_ok] at h
  obtain ⟨q1, h1, q2, h2, q3, h3, h4⟩ := h
  refine (shown_resetProcessContactsCovMat h4).trans ((shown_withQ h3).trans (Eq.trans ?_ (shown_withQ h1)))
  exact Res.foldlM_inv (fun q => q.shown = q1.shown) (fun b a b' hb e => (shown_withQ e).trans hb) _ _ _ h2 rfl

theorem shown_start (o : Observer) : o.startNewIteration.shown = o.shown := by
  unfold startNewIteration
  split_ifs <;> rfl

theorem shown_data (op : Op) (hd : op.isData = true) (h : Op.exec o op = .ok o') : o'.shown = o.shown := by
  rw [← shown_start o]
  cases op <;> simp only [Op.isData, reduceCtorEq] at hd <;> clear hd <;> simp only [Op.exec] at h
  any_goals (cases h; rfl)
  case setInertiaMatrix =>
    simp only [setInertiaMatrix, Res.bind_eq_ok] at h
    obtain ⟨_, -, h⟩ := h
    cases h; rfl
  case setInertiaVector =>
    simp only [setInertiaVector, Res.bind_eq_ok] at h
    obtain ⟨_, -, h⟩ := h
    split_ifs at h
    · rw [Res.bind_eq_ok] at h
      obtain ⟨_, -, h⟩ := h
      cases h; rfl
    · cases h; rfl
  case setCenterOfMass2 =>
    simp only [setCenterOfMass2, Res.bind_eq_ok] at h
    obtain ⟨_, -, h⟩ := h
    cases h; rfl
  case setCenterOfMass =>
    simp only [setCenterOfMass, Res.bind_eq_ok] at h
    obtain ⟨_, -, h⟩ := h
    split_ifs at h
    · simp only [Res.bind_eq_ok] at h
      obtain ⟨_, -, _, -, _, -, h⟩ := h
      cases h; rfl
    · cases h; rfl
  case setAngularMomentum =>
    simp only [setAngularMomentum, Res.bind_eq_ok] at h
    obtain ⟨_, -, h⟩ := h
    cases h; rfl

theorem shown_other (op : Op) (hs : op.setsState = false) (ha : op ≠ .estimateAccelerations) (h : Op.exec o op = .ok o') : o'.shown = o.shown := by
  by_cases hd : op.isData = true
  · exact shown_data op hd h
  cases op <;> simp only [Op.isData, Op.setsState, reduceCtorEq, not_true_eq_false, ne_eq] at hd hs ha <;> clear hd hs ha <;>
    simp only [Op.exec, Res.bind_eq_ok] at h
  any_goals (cases h; rfl)
  any_goals exact shown_withP h
  any_goals exact shown_withQ h
  case setIMU =>
    rw [← shown_start o]
    obtain ⟨r, h1, h2⟩ := h
    cases h2
    simp only [setIMU, Res.bind_eq_ok] at h1
    obtain ⟨n, -, m, -, k, -, h⟩ := h1
    cases h; rfl
  case updateContactWithWrenchSensor =>
    rw [← shown_start o]
    simp only [updateContactWithWrenchSensor, Res.bind_eq_ok] at h
    obtain ⟨c, -, k, -, h⟩ := h
    cases h; rfl
  case updateContactWithNoSensor =>
    rw [← shown_start o]
    simp only [updateContactWithNoSensor, Res.bind_eq_ok] at h
    obtain ⟨c, -, k, -, h⟩ := h
    cases h; rfl
  case setAbsolutePoseSensor =>
    cases h
    rw [← shown_start o]; rfl
  case removeContact =>
    simp only [removeContact, Res.bind_eq_ok] at h
    obtain ⟨c, -, _, -, h⟩ := h
    cases h; rfl
  case setKinematicsInitCovarianceDefault =>
    unfold setKinematicsInitCovarianceDefault at h
    split_ifs at h
    cases h; rfl
  case resetStateCovarianceMat => exact shown_resetStateCovarianceMat h
  case resetStateContactsCovMat => exact shown_resetStateContactsCovMat h
  case resetStateContactCovMat => exact shown_resetStateContactCovMat h
  case resetProcessCovarianceMat => exact shown_resetProcessCovarianceMat h
  case resetProcessContactsCovMat => exact shown_resetProcessContactsCovMat h
  case resetProcessContactCovMat => exact shown_resetProcessContactCovMat h
  case getMeasurementVector =>
    obtain ⟨r, h1, h2⟩ := h
    cases h2
    simp only [getMeasurementVector, Res.bind_eq_ok] at h1
    obtain ⟨n, -, h⟩ := h1
    split_ifs at h
    · simp only [Res.bind_eq_ok] at h
      obtain ⟨_, -, _, -, _, -, _, -, h⟩ := h
      cases h; rfl
    · cases h; rfl

end StateObs.KO
