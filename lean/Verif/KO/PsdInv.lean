import Verif.KO.PackLemmas
import Verif.KO.Fresh
import Verif.Kalman.Singular
/-!
# The covariances stay positive semidefinite: invariant
-/

namespace StateObs.KO
open StateObs Matrix Rot Kine KF

/-- The covariances given to a call are symmetric positive semidefinite. -/
def Op.GoodCov : Op → Prop
  | .setIMU _ _ c _ _ => ∀ p ∈ c, p.1.PosSemidef ∧ p.2.PosSemidef
  | .setIMUDefaultCovarianceMatrix a g => a.PosSemidef ∧ g.PosSemidef
  | .updateContactWithWrenchSensor _ c _ _ => ∀ M ∈ c, M.PosSemidef
  | .setContactWrenchSensorDefaultCovarianceMatrix c => c.PosSemidef
  | .setAbsolutePoseSensor _ c => ∀ M ∈ c, M.PosSemidef
  | .setAbsolutePoseSensorDefaultCovarianceMatrix c => c.PosSemidef
  | .addContact _ c _ _ => ∀ p ∈ c, p.1.PosSemidef ∧ p.2.PosSemidef
  | .setStateCovarianceMat P => IsPSD P
  | .setKinematicsStateCovariance B => IsPSD B
  | .setKinematicsInitCovarianceDefault B => IsPSD B
  | .setGyroBiasStateCovariance B _ => B.PosSemidef
  | .setGyroBiasInitCovarianceDefault B => B.PosSemidef
  | .setGyroBiasProcessCovariance B _ => B.PosSemidef
  | .setUnmodeledWrenchStateCovMat B => B.PosSemidef
  | .setUnmodeledWrenchInitCovMatDefault B => B.PosSemidef
  | .setUnmodeledWrenchProcessCovMat B => B.PosSemidef
  | .setContactStateCovMat _ B => B.PosSemidef
  | .setContactInitCovMatDefault B => B.PosSemidef
  | .setContactProcessCovMat _ B => B.PosSemidef
  | .setProcessNoiseCovarianceMat Q => IsPSD Q
  | _ => True

/-- The covariances an observer holds besides those of its filter. -/
structure Covs where
  gI : M3
  uI : M6
  cI : M12
  gP : M3
  uP : M6
  cP : M12
  kI : M12
  kP : M12
  acc : M3
  gyro : M3
  wrench : M6
  abs : M6
  imus : List (Option M3 × Option M3)
  contacts : List (CItem M6)
  pose : CItem M6

namespace Observer
/-- Those of `o`. -/
def covs (o : Observer) : Covs :=
  ⟨o.gyroBiasInit, o.unmodeledInit, o.contactInit, o.gyroBiasProc, o.unmodeledProc, o.contactProc, o.kineInit, o.kineProc, o.accCov, o.gyroCov, o.wrenchCov,
    o.absCov, o.imus.map fun m => (m.covAcc, m.covGyro), o.contacts.map (·.sensorCov), o.abs.cov⟩
end Observer

structure CovsOk (c : Covs) : Prop where
  gI : c.gI.PosSemidef
  uI : c.uI.PosSemidef
  cI : c.cI.PosSemidef
  gP : c.gP.PosSemidef
  uP : c.uP.PosSemidef
  cP : c.cP.PosSemidef
  kI : c.kI.PosSemidef
  kP : c.kP.PosSemidef
  acc : c.acc.PosSemidef
  gyro : c.gyro.PosSemidef
  wrench : c.wrench.PosSemidef
  abs : c.abs.PosSemidef
  imus : ∀ m ∈ c.imus, (∀ A ∈ m.1, A.PosSemidef) ∧ ∀ A ∈ m.2, A.PosSemidef
  contacts : ∀ i ∈ c.contacts, ∀ A ∈ i.v, A.PosSemidef
  pose : ∀ A ∈ c.pose.v, A.PosSemidef

structure CovF (P Q : DMat) (c : Covs) : Prop where
  pr : IsPSD P
  q : IsPSD Q
  covs : CovsOk c

/-- All the covariances of an observer are symmetric positive semidefinite. -/
def CovInv (o : Observer) : Prop := CovF o.ekf.st.pr o.ekf.st.q o.covs

variable {nc ni : ℕ} {o o' : Observer}

theorem CovInv.same (h : CovInv o) (h1 : o'.ekf.st.pr = o.ekf.st.pr) (h2 : o'.ekf.st.q = o.ekf.st.q) (h3 : o'.covs = o.covs) : CovInv o' :=
  ⟨h1 ▸ h.pr, h2 ▸ h.q, h3 ▸ h.covs⟩

namespace Observer

theorem block_psd {n : ℕ} {P B M : DMat} {i : ℕ} (hP : IsPSD P) (hB : IsPSD B) (h : setBlockStateCovariance n P B i = .ok M) : IsPSD M := by
  obtain ⟨N, P', rfl, hP'⟩ := hP
  obtain ⟨B', rfl, hr, rfl⟩ := (setBlockStateCovariance_iff P' i B M).1 h
  exact isPSD_mk.2 ((replaceBlock_replaced P' i B' hr).psd hP' (isPSD_mk.1 hB))

theorem psd_dm {n : ℕ} {B : Matrix (Fin n) (Fin n) ℝ} (h : B.PosSemidef) : IsPSD (dm B) := isPSD_mk.2 h

theorem covInv_withP {f : DMat → Res DMat} (hf : ∀ P P', IsPSD P → f P = .ok P' → IsPSD P') (hc : CovInv o) (h : o.withP f = .ok o') : CovInv o' := by
  simp only [withP, Res.bind_eq_ok, KF.setStateCovariance] at h
  obtain ⟨P, h0, e1, ⟨a, ha, h1⟩, h2⟩ := h
  cases h1; cases h2
  exact ⟨hf _ _ hc.pr h0, hc.q, hc.covs⟩

theorem covInv_withQ {f : DMat → Res DMat} (hf : ∀ P P', IsPSD P → f P = .ok P' → IsPSD P') (hc : CovInv o) (h : o.withQ f = .ok o') : CovInv o' := by
  simp only [withQ, Res.bind_eq_ok, KF.setQ] at h
  obtain ⟨P, h0, e1, ⟨a, ha, h1⟩, h2⟩ := h
  cases h1; cases h2
  exact ⟨hc.pr, hf _ _ hc.q h0, hc.covs⟩

theorem good_at {n : ℕ} {B : DMat} {i : ℕ} (hB : IsPSD B) : ∀ P P' : DMat, IsPSD P → setBlockStateCovariance n P B i = .ok P' → IsPSD P' :=
  fun _ _ hP h => block_psd hP hB h

theorem good_bind {n : ℕ} {B : DMat} {j : Res ℕ} (hB : IsPSD B) :
    ∀ P P' : DMat, IsPSD P → (j >>= fun i => setBlockStateCovariance n P B i) = .ok P' → IsPSD P' := by
  intro P P' hP h
  rw [Res.bind_eq_ok] at h
  obtain ⟨i, -, h⟩ := h
  exact block_psd hP hB h

theorem withP_covs {f : DMat → Res DMat} (h : o.withP f = .ok o') : o'.covs = o.covs := by
  simp only [withP, Res.bind_eq_ok, KF.setStateCovariance] at h
  obtain ⟨P, h0, e1, ⟨a, ha, h1⟩, h2⟩ := h
  cases h1; cases h2; rfl

theorem covInv_pushState {x : DVec} {k : Kin} (hc : CovInv o) (e : pushState { o with stateKin := k, x := x } = .ok o') : CovInv o' := by
  simp only [pushState, Res.bind_eq_ok, Obs.setState] at e
  obtain ⟨e1, ⟨_, -, t, -, h1⟩, h2⟩ := e
  split_ifs at h1 <;> cases h1 <;> cases h2 <;> exact hc

theorem covInv_pushState' {x : DVec} (hc : CovInv o) (e : pushState { o with x := x } = .ok o') : CovInv o' :=
  covInv_pushState (k := o.stateKin) hc e

theorem covInv_updateKine (hc : CovInv o) (e : o.updateKine = .ok o') : CovInv o' := by
  simp only [updateKine, Res.bind_eq_ok] at e
  obtain ⟨s, -, k, -, h2⟩ := e
  cases h2; exact hc

theorem covInv_start (hc : CovInv o) : CovInv o.startNewIteration := by
  unfold startNewIteration
  split_ifs
  · exact hc
  · exact hc

theorem mem_set_map {α β : Type} (f : α → β) (l : List α) (n : ℕ) (a : α) (P : β → Prop) (h : ∀ b ∈ l.map f, P b) (ha : P (f a)) :
    ∀ b ∈ (l.set n a).map f, P b := by
  intro b hb
  obtain ⟨a', ha', rfl⟩ := List.mem_map.1 hb
  rcases List.mem_or_eq_of_mem_set ha' with h1 | rfl
  · exact h _ (List.mem_map_of_mem h1)
  · exact ha

theorem covInv_resetStateContactCovMat {n : ℕ} (hc : CovInv o) (h : o.resetStateContactCovMat n = .ok o') : CovInv o' := by
  unfold resetStateContactCovMat at h
  split at h
  · cases h
  · simp only [Res.bind_eq_ok] at h
    obtain ⟨_, -, h⟩ := h
    exact covInv_withP (good_at (psd_dm hc.covs.cI)) hc h

theorem covInv_resetStateContactsCovMat (hc : CovInv o) (h : o.resetStateContactsCovMat = .ok o') : CovInv o' := by
  refine Res.foldlM_inv CovInv (fun b a b' hb e => ?_) _ _ _ h hc
  simp only [resetStateContactIfSet, Res.bind_eq_ok] at e
  obtain ⟨c, -, e⟩ := e
  split_ifs at e
  · exact covInv_resetStateContactCovMat hb e
  · cases e; exact hb

theorem covInv_resetStateCovarianceMat (hc : CovInv o) (h : o.resetStateCovarianceMat = .ok o') : CovInv o' := by
  simp only [resetStateCovarianceMat, Res.bind_eq_ok] at h
  obtain ⟨o1, h1, o2, h2, o3, h3, h4⟩ := h
  have c1 := covInv_withP (good_at (psd_dm hc.covs.kI)) hc h1
  have c2 : CovInv o2 := by
    refine Res.foldlM_inv CovInv (fun b a b' hb e => ?_) _ _ _ h2 c1
    simp only [resetStateGyroBiasIfTime, Res.bind_eq_ok] at e
    obtain ⟨c, -, e⟩ := e
    split_ifs at e
    · exact covInv_withP (good_bind (psd_dm hb.covs.gI)) hb e
    · cases e; exact hb
  exact covInv_resetStateContactsCovMat (covInv_withP (good_bind (psd_dm c2.covs.uI)) c2 h3) h4

theorem covInv_resetProcessContactCovMat {n : ℕ} (hc : CovInv o) (h : o.resetProcessContactCovMat n = .ok o') : CovInv o' := by
  simp only [resetProcessContactCovMat, Res.bind_eq_ok] at h
  obtain ⟨_, -, _, -, _, -, h⟩ := h
  exact covInv_withQ (good_at (psd_dm hc.covs.cP)) hc h

theorem covInv_resetProcessContactsCovMat (hc : CovInv o) (h : o.resetProcessContactsCovMat = .ok o') : CovInv o' := by
  refine Res.foldlM_inv CovInv (fun b a b' hb e => ?_) _ _ _ h hc
  simp only [resetProcessContactIfSet, Res.bind_eq_ok] at e
  obtain ⟨c, -, e⟩ := e
  split_ifs at e
  · exact covInv_resetProcessContactCovMat hb e
  · cases e; exact hb

theorem covInv_resetProcessCovarianceMat (hc : CovInv o) (h : o.resetProcessCovarianceMat = .ok o') : CovInv o' := by
  simp only [resetProcessCovarianceMat, Res.bind_eq_ok] at h
  obtain ⟨o1, h1, o2, h2, o3, h3, h4⟩ := h
  have c1 := covInv_withQ (good_at (psd_dm hc.covs.kP)) hc h1
  have c2 := Res.foldlM_inv CovInv (fun b a b' hb e => covInv_withQ (good_bind (psd_dm hb.covs.gP)) hb e) _ _ _ h2 c1
  exact covInv_resetProcessContactsCovMat (covInv_withQ (good_bind (psd_dm c2.covs.uP)) c2 h3) h4

theorem covInv_setStateKinematics {k : Kin} {f c : Bool} (hc : CovInv o) (h : o.setStateKinematics k f c = .ok o') : CovInv o' := by
  simp only [setStateKinematics, Res.bind_eq_ok] at h
  obtain ⟨_, -, r, -, x, -, x2, -, o1, h1, h2⟩ := h
  have c1 := covInv_pushState hc h1
  split_ifs at h2
  · refine covInv_withP (fun P P' hP e => ?_) c1 h2
    rw [Res.bind_eq_ok] at e
    obtain ⟨P1, e1, e2⟩ := e
    have p1 := block_psd hP (psd_dm c1.covs.kI) e1
    split_ifs at e2
    · refine Res.foldlM_inv IsPSD (fun b a b' hb e => ?_) _ _ _ e2 p1
      unfold resetContactBlock at e
      split_ifs at e
      · rw [Res.bind_eq_ok] at e
        obtain ⟨i, -, e⟩ := e
        exact block_psd hb (psd_dm c1.covs.cI) e
      · cases e; exact hb
    · cases e2; exact p1
  · cases h2; exact c1

theorem covInv_setGyroBias {b : V3} {i : ℕ} {c : Bool} (hc : CovInv o) (h : o.setGyroBias b i c = .ok o') : CovInv o' := by
  simp only [setGyroBias, Res.bind_eq_ok] at h
  obtain ⟨_, -, x, -, o1, h1, h2⟩ := h
  have c1 := covInv_pushState' hc h1
  split_ifs at h2
  · exact covInv_withP (good_bind (psd_dm c1.covs.gI)) c1 h2
  · cases h2; exact c1

theorem covInv_setStateUnmodeledWrench {w : V6} {c : Bool} (hc : CovInv o) (h : o.setStateUnmodeledWrench w c = .ok o') : CovInv o' := by
  simp only [setStateUnmodeledWrench, Res.bind_eq_ok] at h
  obtain ⟨_, -, x, -, o1, h1, h2⟩ := h
  have c1 := covInv_pushState' hc h1
  split_ifs at h2
  · exact covInv_withP (good_bind (psd_dm c1.covs.uI)) c1 h2
  · cases h2; exact c1

theorem covInv_setStateVector {w : DVec} {c : Bool} (hc : CovInv o) (h : o.setStateVector w c = .ok o') : CovInv o' := by
  simp only [setStateVector, Res.bind_eq_ok] at h
  obtain ⟨o1, h1, o2, h2, h3⟩ := h
  have c1 := covInv_updateKine (covInv_pushState' hc h1) h2
  split_ifs at h3
  · exact covInv_resetStateCovarianceMat c1 h3
  · cases h3; exact c1

theorem mem_of_get {α : Type} {l : List α} {n : ℕ} {a : α} (h : l[n]? = some a) : a ∈ l := List.mem_of_getElem? h

theorem covInv_setIMU {a g : V3} {cov : Option (M3 × M3)} {k : Kin} {num : Int} {n : ℕ} (hg : ∀ p ∈ cov, p.1.PosSemidef ∧ p.2.PosSemidef) (hc : CovInv o)
    (h : o.setIMU a g cov k num = .ok (n, o')) : CovInv o' := by
  simp only [setIMU, Res.bind_eq_ok] at h
  obtain ⟨n', h1, m, h2, kin, h3, h4⟩ := h
  cases h4
  have hs := covInv_start hc
  simp only [selectIMU, Res.bind_eq_ok] at h2
  obtain ⟨_, -, m', hm, _, -, e⟩ := h2
  cases e
  have hm' := hs.covs.imus _ (List.mem_map_of_mem (mem_of_get (rd_ok hm)))
  refine ⟨hs.pr, hs.q, { hs.covs with imus := mem_set_map _ _ _ _ _ hs.covs.imus ?_ }⟩
  cases cov with
  | some p =>
    have := hg p rfl
    exact ⟨fun A hA => by cases hA; exact this.1, fun A hA => by cases hA; exact this.2⟩
  | none =>
    dsimp only
    split_ifs
    · exact ⟨fun A hA => by cases hA; exact hs.covs.acc, fun A hA => by cases hA; exact hs.covs.gyro⟩
    · exact hm'

theorem covInv_setContact {n : ℕ} {c' : Contact} {r : Int} (hc : CovInv o) (h : ∀ A ∈ c'.sensorCov.v, A.PosSemidef) :
    CovInv { o with contacts := o.contacts.set n c', nReal := r } :=
  ⟨hc.pr, hc.q, { hc.covs with contacts := mem_set_map _ _ _ _ _ hc.covs.contacts h }⟩

theorem covInv_updateContactWithWrenchSensor {w : V6} {cov : Option M6} {k : Kin} {n : ℕ} (hg : ∀ M ∈ cov, M.PosSemidef) (hc : CovInv o)
    (h : o.updateContactWithWrenchSensor w cov k n = .ok o') : CovInv o' := by
  simp only [updateContactWithWrenchSensor, Res.bind_eq_ok] at h
  obtain ⟨c, h1, kin, h2, h3⟩ := h
  obtain ⟨-, hc', hs⟩ := selectContact_ok h1
  have hs := covInv_start hc
  cases h3
  refine covInv_setContact hs ?_
  cases cov with
  | some M => exact fun A hA => by cases hA; exact hg _ rfl
  | none =>
    dsimp only
    split_ifs
    · exact hs.covs.contacts _ (List.mem_map_of_mem (mem_of_get hc'))
    · exact fun A hA => by cases hA; exact hs.covs.wrench

theorem covInv_updateContactWithNoSensor {k : Kin} {n : ℕ} (hc : CovInv o) (h : o.updateContactWithNoSensor k n = .ok o') : CovInv o' := by
  simp only [updateContactWithNoSensor, Res.bind_eq_ok] at h
  obtain ⟨c, h1, kin, h2, h3⟩ := h
  obtain ⟨-, hc', -⟩ := selectContact_ok h1
  have hs := covInv_start hc
  cases h3
  have := hs.covs.contacts _ (List.mem_map_of_mem (mem_of_get hc'))
  exact covInv_setContact hs this

theorem covInv_setAbsolutePoseSensor {k : Kin} {cov : Option M6} (hg : ∀ M ∈ cov, M.PosSemidef) (hc : CovInv o) : CovInv (o.setAbsolutePoseSensor k cov) := by
  have hs := covInv_start hc
  refine ⟨hs.pr, hs.q, { hs.covs with pose := ?_ }⟩
  cases cov with
  | some M => exact fun A hA => by cases hA; exact hg _ rfl
  | none =>
    dsimp only [setAbsolutePoseSensor, covs]
    split_ifs
    · exact hs.covs.pose
    · exact fun A hA => by cases hA; exact hs.covs.abs

theorem covInv_setInertiaVector {I : V6} (hc : CovInv o) (h : o.setInertiaVector I = .ok o') : CovInv o' := by
  simp only [setInertiaVector, Res.bind_eq_ok] at h
  obtain ⟨old, -, h⟩ := h
  split_ifs at h
  · simp only [Res.bind_eq_ok] at h
    obtain ⟨_, -, h⟩ := h
    cases h; exact covInv_start hc
  · cases h; exact covInv_start hc

theorem covInv_setCenterOfMass {c : V3} (hc : CovInv o) (h : o.setCenterOfMass c = .ok o') : CovInv o' := by
  simp only [setCenterOfMass, Res.bind_eq_ok] at h
  obtain ⟨old, -, h⟩ := h
  split_ifs at h
  · simp only [Res.bind_eq_ok] at h
    obtain ⟨_, -, _, -, _, -, h⟩ := h
    cases h; exact covInv_start hc
  · cases h; exact covInv_start hc

theorem covInv_resetInputs (hc : CovInv o) : CovInv o.resetInputs :=
  hc.same rfl rfl (by simp [covs, resetInputs, Function.comp_def])

theorem covInv_addContact {pose : Kin} {cov : Option (M12 × M12)} {num : Int} {v : Visco} {n : ℕ} (hg : ∀ p ∈ cov, p.1.PosSemidef ∧ p.2.PosSemidef)
    (hc : CovInv o) (h : o.addContact pose cov num v = .ok (n, o')) : CovInv o' := by
  simp only [addContact, Res.bind_eq_ok] at h
  obtain ⟨_, -, n', -, _, -, c, hcc, _, hs, si, h1, st, h2, r, -, x, hx, o1, h3, o2, h4, h5⟩ := h
  cases h5
  have hp : (cov.getD (o.contactInit, o.contactProc)).1.PosSemidef ∧ (cov.getD (o.contactInit, o.contactProc)).2.PosSemidef := by
    cases cov with
    | none => exact ⟨hc.covs.cI, hc.covs.cP⟩
    | some p => exact hg p rfl
  refine covInv_withQ (good_at (psd_dm hp.2)) (covInv_withP (good_at (psd_dm hp.1)) ?_ h3) h4
  have := hc.covs.contacts _ (List.mem_map_of_mem (mem_of_get (rd_ok hcc)))
  exact covInv_setContact (c' := { c with isSet := true, stateIndex := _, stateIndexTangent := _, absPose := pose, visco := _ }) (r := o.nReal) (n := n) hc this

theorem covInv_removeContact {n : Int} (hc : CovInv o) (h : o.removeContact n = .ok o') : CovInv o' := by
  simp only [removeContact, Res.bind_eq_ok] at h
  obtain ⟨c, hcc, _, -, h⟩ := h
  cases h
  have hc' := rd_ok hcc
  split_ifs at hc'
  have := hc.covs.contacts _ (List.mem_map_of_mem (mem_of_get hc'))
  exact covInv_setContact hc this

theorem covInv_clearContacts (hc : CovInv o) : CovInv o.clearContacts :=
  ⟨hc.pr, hc.q, { hc.covs with contacts := fun i hi => by simp [covs, clearContacts] at hi }⟩

theorem covInv_getMeasurementVector {y : DVec} (hc : CovInv o) (h : o.getMeasurementVector = .ok (y, o')) : CovInv o' := by
  simp only [getMeasurementVector, Res.bind_eq_ok] at h
  obtain ⟨n, -, h⟩ := h
  split_ifs at h
  · simp only [Res.bind_eq_ok] at h
    obtain ⟨_, -, _, -, _, -, _, -, h⟩ := h
    cases h
    exact hc
  · cases h; exact hc

theorem covInv_estimateAccelerations (hc : CovInv o) (h : o.estimateAccelerations = .ok o') : CovInv o' := by
  simp only [estimateAccelerations, Res.bind_eq_ok] at h
  obtain ⟨_, -, _, -, h⟩ := h
  cases h
  exact hc

end Observer

theorem iso_apply (d : ℝ) (i j : Fin 3) : Observer.iso d i j = if i = j then d else 0 := by
  simp [Observer.iso, Matrix.one_apply, Matrix.smul_apply]

theorem psd_diag {n : ℕ} {M : Matrix (Fin n) (Fin n) ℝ} (d : Fin n → ℝ) (hd : ∀ i, 0 ≤ d i) (h : ∀ i j, M i j = if i = j then d i else 0) : M.PosSemidef := by
  have : M = diagonal d := by
    ext i j
    rw [h, diagonal_apply]
  rw [this]
  exact PosSemidef.diagonal hd

theorem psd_iso {d : ℝ} (h : 0 ≤ d) : (Observer.iso d).PosSemidef := psd_diag (fun _ => d) (fun _ => h) (iso_apply d)

theorem psd_diag6 {a b : ℝ} (ha : 0 ≤ a) (hb : 0 ≤ b) : (Observer.diag6 (Observer.iso a) (Observer.iso b)).PosSemidef := by
  refine psd_diag (fun i => if i.1 < 3 then a else b) (fun i => by split_ifs <;> assumption) fun i j => ?_
  unfold Observer.diag6
  by_cases h : i = j
  · subst h
    by_cases h3 : i.1 < 3
    · simp [h3, iso_apply]
    · simp [h3, iso_apply]
  · have h' : i.1 ≠ j.1 := fun e => h (Fin.ext e)
    rw [if_neg h]
    split_ifs
    · rw [iso_apply, if_neg]; simp only [Fin.ext_iff]; omega
    · rw [iso_apply, if_neg]; simp only [Fin.ext_iff]; omega
    · rfl

theorem psd_diag12 {a b c d : ℝ} (ha : 0 ≤ a) (hb : 0 ≤ b) (hc : 0 ≤ c) (hd : 0 ≤ d) :
    (Observer.diag12 (Observer.iso a) (Observer.iso b) (Observer.iso c) (Observer.iso d)).PosSemidef := by
  refine psd_diag (fun i => if i.1 < 3 then a else if i.1 < 6 then b else if i.1 < 9 then c else d) (fun i => by split_ifs <;> assumption)
    fun i j => ?_
  unfold Observer.diag12
  by_cases h : i = j
  · subst h
    rw [if_pos rfl, if_pos rfl]
    split_ifs <;> simp [iso_apply]
  · have h' : i.1 ≠ j.1 := fun e => h (Fin.ext e)
    rw [if_neg h]
    split_ifs
    all_goals first
      | rfl
      | (rw [iso_apply, if_neg]; simp only [Fin.ext_iff]; omega)

theorem psd_scalar {n : ℕ} {d : ℝ} (h : 0 ≤ d) : (d • (1 : Matrix (Fin n) (Fin n) ℝ)).PosSemidef :=
  psd_diag (fun _ => d) (fun _ => h) fun i j => by simp [Matrix.one_apply, Matrix.smul_apply]

theorem covInv_base (nc ni : ℕ) : CovInv (base nc ni) := by
  have z : ∀ n, (0 : Matrix (Fin n) (Fin n) ℝ).PosSemidef := fun n => PosSemidef.zero
  refine ⟨isPSD_mk.2 (z _), isPSD_mk.2 (z _), ?_⟩
  refine ⟨psd_iso (by norm_num), psd_scalar (by norm_num), psd_diag12 ?_ ?_ ?_ ?_, psd_iso (by norm_num), psd_scalar (by norm_num), psd_diag12 ?_ ?_ ?_ ?_,
    psd_diag12 ?_ ?_ ?_ ?_, psd_diag12 ?_ ?_ ?_ ?_, psd_iso (by norm_num), psd_iso (by norm_num), psd_diag6 ?_ ?_, psd_diag6 ?_ ?_, ?_, ?_, ?_⟩
  any_goals (norm_num; done)
  · intro m hm
    have hm' : m ∈ (List.replicate ni IMU.new).map fun m => (m.covAcc, m.covGyro) := hm
    rw [List.map_replicate] at hm'
    rw [(List.mem_replicate.1 hm').2]
    exact ⟨fun A hA => by simp [IMU.new] at hA, fun A hA => by simp [IMU.new] at hA⟩
  · intro m hm
    have hm' : m ∈ (List.replicate nc Contact.new).map (·.sensorCov) := hm
    rw [List.map_replicate] at hm'
    rw [(List.mem_replicate.1 hm').2]
    exact fun A hA => by simp [Contact.new, CItem.new] at hA
  · exact fun A hA => by simp [Observer.covs, base, Observer.init, CItem.new] at hA

theorem read_some {i : CItem M6} {M : M6} (h : i.read dbg = .ok M) : i.v = some M := by
  unfold CItem.read at h
  split_ifs at h
  split at h
  · cases h; assumption
  · cases h

/-- The covariance of the measurement is positive semidefinite. -/
theorem Observer.measCov_psd {y : DVec} {cov : DMat} (hc : CovInv o) (h : o.buildMeasurement = .ok (o', y, cov)) : IsPSD cov := by
  obtain ⟨-, hcov, -⟩ := buildMeasurement_holds h
  refine hcov.psd fun B hB => ?_
  rcases List.mem_append.1 hB with hB | hB
  · rcases List.mem_append.1 hB with hB | hB
    · obtain ⟨m, hm, hB⟩ := List.mem_flatMap.1 hB
      have := hc.covs.imus _ (List.mem_map_of_mem hm)
      unfold IMU.blocks at hB
      split_ifs at hB
      · rcases List.mem_append.1 hB with hB | hB
        · simp only [Option.mem_toList, Option.map_eq_some_iff] at hB
          obtain ⟨A, hA, rfl⟩ := hB
          exact this.1 A hA
        · simp only [Option.mem_toList, Option.map_eq_some_iff] at hB
          obtain ⟨A, hA, rfl⟩ := hB
          exact this.2 A hA
      · simp at hB
    · obtain ⟨c, hcm, hB⟩ := List.mem_flatMap.1 hB
      have := hc.covs.contacts _ (List.mem_map_of_mem hcm)
      unfold Contact.blocks at hB
      split_ifs at hB
      · split at hB
        · next M hM =>
          simp only [List.mem_singleton] at hB
          subst hB
          exact this M (read_some hM)
        · simp at hB
      · simp at hB
  · unfold poseBlocks at hB
    split_ifs at hB
    · split at hB
      · next M hM =>
        simp only [List.mem_singleton] at hB
        subst hB
        exact hc.covs.pose M (read_some hM)
      · simp at hB
    · simp at hB

theorem Observer.buildMeasurement_cov {y : DVec} {cov : DMat} (h : o.buildMeasurement = .ok (o', y, cov)) : o'.covs = o.covs ∧ o'.ekf = o.ekf := by
  have h' := h
  simp only [Observer.buildMeasurement, Res.bind_eq_ok] at h'
  obtain ⟨_, -, n, -, i, h1, c, h2, a, h3, y', -, h4⟩ := h'
  cases h4
  refine ⟨?_, rfl⟩
  have e1 := packIMUs_forall h1
  have e2 := packContacts_forall h2
  have q1 : i.1.map (fun m => (m.covAcc, m.covGyro)) = o.imus.map fun m => (m.covAcc, m.covGyro) := by
    clear h h1 h2 h3 e2
    generalize i.1 = l at e1
    generalize o.imus = l' at e1
    induction e1 with
    | nil => rfl
    | cons h _ ih => obtain ⟨j, rfl⟩ := h; simp [ih]
  have q2 : c.1.map (·.sensorCov) = o.contacts.map (·.sensorCov) := by
    clear h h1 h2 h3 e1
    generalize c.1 = l at e2
    generalize o.contacts = l' at e2
    induction e2 with
    | nil => rfl
    | cons h _ ih => obtain ⟨j, rfl⟩ := h; simp [ih]
  have q3 : a.1.cov = o.abs.cov := by
    unfold Observer.packPose at h3
    split_ifs at h3
    · simp only [Res.bind_eq_ok] at h3
      obtain ⟨_, -, _, -, _, -, _, -, _, -, h3⟩ := h3
      cases h3; rfl
    · cases h3; rfl
  simp only [Observer.covs, q1, q2, q3]

theorem Observer.covInv_update (hi : Inv nc ni o) (hc : CovInv o) (h : o.update = .ok o') : CovInv o' := by
  unfold Observer.update at h
  split_ifs at h with hk
  · simp only [Res.bind_eq_ok] at h
    obtain ⟨⟨o1, y, cov⟩, h1, e, h2, h3⟩ := h
    obtain ⟨hi1, hk1, hk2⟩ := inv_buildMeasurement hi h1
    obtain ⟨c1, f1⟩ := buildMeasurement_cov h1
    have hkk : o1.kData = o1.kEst + 1 := by have := hi.2.time; simp only [hk1, hk2]; omega
    have hR := measCov_psd hc h1
    have hcc : CovInv o1 := hc.same (by rw [f1]) (by rw [f1]) c1
    obtain ⟨v, xb, yb, xhat, inn, A, C, Q, P0, R, P, K, st, hx, hxb, -, -, -, hcv, hQ, hP0, -, -, hM, har, hcor, ex, epr, eq, -⟩ := runFilter_ok hkk hi1.2.ekf h2
    have pQ : Q.PosSemidef := isPSD_mk.1 (hQ ▸ hcc.q)
    have pP : P0.PosSemidef := isPSD_mk.1 (hP0 ▸ hcc.pr)
    have pR : R.PosSemidef := isPSD_mk.1 (hcv ▸ hR)
    obtain ⟨hS, hP', -⟩ := correct_ok hM pQ pP pR hcor
    have hce : CovInv { o1 with ekf := e } := ⟨by
      dsimp only
      rw [epr, hP']
      exact isPSD_mk.2 (KFSpec.posterior_psd' hS pR (KFSpec.predCov_psd pQ pP)), by dsimp only; rw [eq]; exact hcc.q, hcc.covs⟩
    simp only [afterFilter, Res.bind_eq_ok] at h3
    obtain ⟨x, hx, o2, h4, h5⟩ := h3
    have hc2 : CovInv o2 := covInv_updateKine (o := { o1 with ekf := e, x := x, kEst := o1.kEst + 1, stateKin := o1.stateKin.reset }) ⟨hce.pr, hce.q, hce.covs⟩ h4
    split_ifs at h5
    · exact covInv_estimateAccelerations hc2 h5
    · cases h5; exact hc2
  · cases h; exact hc

theorem Observer.covInv_exec (op : Op) (hg : op.GoodCov) (hi : Inv nc ni o) (hc : CovInv o) (h : Op.exec o op = .ok o') : CovInv o' := by
  cases op <;> simp only [Op.exec, Res.bind_eq_ok] at h
  case setSamplingTime => cases h; exact hc
  case setMass => cases h; exact hc
  case update => exact covInv_update hi hc h
  case estimateAccelerations => exact covInv_estimateAccelerations hc h
  case setStateKinematics => exact covInv_setStateKinematics hc h
  case setGyroBias => exact covInv_setGyroBias hc h
  case setStateUnmodeledWrench => exact covInv_setStateUnmodeledWrench hc h
  case setStateVector => exact covInv_setStateVector hc h
  case setAdditionalWrench => cases h; exact hc
  case setWithUnmodeledWrench => cases h; exact hc
  case setWithAccelerationEstimation => cases h; exact hc
  case setWithGyroBias => cases h; exact hc
  case setIMU => obtain ⟨r, h1, h2⟩ := h; cases h2; exact covInv_setIMU hg hc h1
  case setIMUDefaultCovarianceMatrix => cases h; exact ⟨hc.pr, hc.q, { hc.covs with acc := hg.1, gyro := hg.2 }⟩
  case updateContactWithWrenchSensor => exact covInv_updateContactWithWrenchSensor hg hc h
  case setContactWrenchSensorDefaultCovarianceMatrix => cases h; exact ⟨hc.pr, hc.q, { hc.covs with wrench := hg }⟩
  case updateContactWithNoSensor => exact covInv_updateContactWithNoSensor hc h
  case setAbsolutePoseSensor => cases h; exact covInv_setAbsolutePoseSensor hg hc
  case setAbsolutePoseSensorDefaultCovarianceMatrix => cases h; exact ⟨hc.pr, hc.q, { hc.covs with abs := hg }⟩
  case setInertiaMatrix2 => cases h; exact covInv_start hc
  case setInertiaMatrix =>
    simp only [setInertiaMatrix, Res.bind_eq_ok] at h
    obtain ⟨_, -, h⟩ := h
    cases h; exact covInv_start hc
  case setInertiaVector2 => cases h; exact covInv_start hc
  case setInertiaVector => exact covInv_setInertiaVector hc h
  case setCenterOfMass3 => cases h; exact covInv_start hc
  case setCenterOfMass2 =>
    simp only [setCenterOfMass2, Res.bind_eq_ok] at h
    obtain ⟨_, -, h⟩ := h
    cases h; exact covInv_start hc
  case setCenterOfMass => exact covInv_setCenterOfMass hc h
  case setAngularMomentum2 => cases h; exact covInv_start hc
  case setAngularMomentum =>
    simp only [setAngularMomentum, Res.bind_eq_ok] at h
    obtain ⟨_, -, h⟩ := h
    cases h; exact covInv_start hc
  case addContact => obtain ⟨r, h1, h2⟩ := h; cases h2; exact covInv_addContact hg hc h1
  case removeContact => exact covInv_removeContact hc h
  case clearContacts => cases h; exact covInv_clearContacts hc
  case setStateCovarianceMat => exact covInv_withP (fun P P' _ e => by cases e; exact hg) hc h
  case setKinematicsStateCovariance => exact covInv_withP (good_at hg) hc h
  case setKinematicsInitCovarianceDefault B =>
    unfold setKinematicsInitCovarianceDefault at h
    split_ifs at h with hs
    cases h
    obtain ⟨N, B', rfl, hB'⟩ := hg
    obtain rfl : N = 12 := hs.1
    exact ⟨hc.pr, hc.q, { hc.covs with kI := hB' }⟩
  case setGyroBiasStateCovariance => exact covInv_withP (good_bind (psd_dm hg)) hc h
  case setGyroBiasInitCovarianceDefault => cases h; exact ⟨hc.pr, hc.q, { hc.covs with gI := hg }⟩
  case setGyroBiasProcessCovariance => exact covInv_withQ (good_bind (psd_dm hg)) hc h
  case setUnmodeledWrenchStateCovMat => exact covInv_withP (good_bind (psd_dm hg)) hc h
  case setUnmodeledWrenchInitCovMatDefault => cases h; exact ⟨hc.pr, hc.q, { hc.covs with uI := hg }⟩
  case setUnmodeledWrenchProcessCovMat => exact covInv_withQ (good_bind (psd_dm hg)) hc h
  case setContactStateCovMat => exact covInv_withP (good_bind (psd_dm hg)) hc h
  case setContactInitCovMatDefault => cases h; exact ⟨hc.pr, hc.q, { hc.covs with cI := hg }⟩
  case setContactProcessCovMat => exact covInv_withQ (good_bind (psd_dm hg)) hc h
  case setProcessNoiseCovarianceMat => exact covInv_withQ (fun P P' _ e => by cases e; exact hg) hc h
  case resetStateCovarianceMat => exact covInv_resetStateCovarianceMat hc h
  case resetStateKinematicsCovMat => exact covInv_withP (good_at (psd_dm hc.covs.kI)) hc h
  case resetStateGyroBiasCovMat => exact covInv_withP (good_bind (psd_dm hc.covs.gI)) hc h
  case resetStateUnmodeledWrenchCovMat => exact covInv_withP (good_bind (psd_dm hc.covs.uI)) hc h
  case resetStateContactsCovMat => exact covInv_resetStateContactsCovMat hc h
  case resetStateContactCovMat => exact covInv_resetStateContactCovMat hc h
  case resetProcessCovarianceMat => exact covInv_resetProcessCovarianceMat hc h
  case resetProcessKinematicsCovMat => exact covInv_withQ (good_at (psd_dm hc.covs.kP)) hc h
  case resetProcessGyroBiasCovMat => exact covInv_withQ (good_bind (psd_dm hc.covs.gP)) hc h
  case resetProcessUnmodeledWrenchCovMat => exact covInv_withQ (good_bind (psd_dm hc.covs.uP)) hc h
  case resetProcessContactsCovMat => exact covInv_resetProcessContactsCovMat hc h
  case resetProcessContactCovMat => exact covInv_resetProcessContactCovMat hc h
  case resetSensorsDefaultCovMat =>
    cases h
    exact ⟨hc.pr, hc.q, { hc.covs with
      acc := psd_iso (by norm_num), gyro := psd_iso (by norm_num), wrench := psd_diag6 (by norm_num) (by norm_num), abs := psd_diag6 (by norm_num) (by norm_num) }⟩
  case resetInputs => cases h; exact covInv_resetInputs hc
  case setFiniteDifferenceStep => cases h; exact hc
  case useFiniteDifferencesJacobians => cases h; exact hc
  case getMeasurementVector => obtain ⟨r, h1, h2⟩ := h; cases h2; exact covInv_getMeasurementVector hc h1

theorem Observer.covInv_construct (h : Observer.construct nc ni = .ok o) : CovInv o := by
  rw [construct_eq] at h
  simp only [Res.bind_eq_ok] at h
  obtain ⟨o1, h1, o2, h2, h3⟩ := h
  exact covInv_updateKine (covInv_resetProcessCovarianceMat (covInv_resetStateCovarianceMat (covInv_base nc ni) h1) h2) h3

theorem Observer.covInv_reachable {l : List Op} (hg : ∀ op ∈ l, op.GoodCov) (h : Reachable nc ni l o) : CovInv o := by
  obtain ⟨o0, h0, h⟩ := h
  have hi := inv_reachable (reachable_construct h0)
  have hc := covInv_construct h0
  clear h0
  induction l generalizing o0 with
  | nil => cases h; exact hc
  | cons op l ih =>
    rw [Op.run, List.foldlM_cons, Res.bind_eq_ok] at h
    obtain ⟨o1, h1, h2⟩ := h
    exact ih (fun p hp => hg p (List.mem_cons_of_mem _ hp)) o1 h2 (inv_exec op hi h1) (covInv_exec op (hg op List.mem_cons_self) hi hc h1)

end StateObs.KO
