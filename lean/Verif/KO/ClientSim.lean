import Verif.KO.LiveOps
import Verif.KO.ClientSpec
import Verif.KO.NewtonFalse
import Verif.KO.ContactProps
import Verif.KO.StateLive
/-!
# The calls of a client return (C84): the relation between what the client knows and the observer
-/

namespace StateObs.KO
open StateObs Matrix Rot Kine KF
open Observer

variable {nc ni : ℕ} {o o' : Observer} {c c' : Client}

/-- The observer is as the client thinks. -/
structure Sim (nc ni : ℕ) (c : Client) (o : Observer) : Prop where
  fed : Fed nc ni o
  dt : o.dt = c.dt
  mass : o.mass = c.mass
  com : o.com.map Prod.fst = c.com
  inertia : o.inertia.map Prod.fst = some c.inertia
  comd : o.comd.isSome = true
  comdd : o.comdd.isSome = true
  sigma : o.sigma.isSome = true
  sigmad : o.sigmad.isSome = true
  inertiad : o.inertiad.isSome = true
  acc : (∃ x, Item o.stateKin.linAcc x) ∧ ∃ x, Item o.stateKin.angAcc x
  state : c.state = true → (∃ x t, o.ekf.x = some (x, t) ∧ GoodState nc ni x) ∧ GoodState nc ni o.x ∧ Moving o.stateKin
  pending : c.pending = true ↔ o.kEst ≠ o.kData
  steps : o.kEst = c.steps
  given : c.pending = true → ∀ n m, o.imus[n]? = some m → (m.time = o.kData ↔ n ∈ c.given)
  seen : ∀ n m, o.imus[n]? = some m → (m.time = 0 ↔ n ∉ c.seen)
  len : o.contacts.length = nc
  contacts : ∀ n k, o.contacts[n]? = some k → (k.isSet = true ↔ n ∈ c.contacts)
  range : ∀ n ∈ c.contacts, n < nc
  moved : c.pending = true → ∀ n k, o.contacts[n]? = some k → n ∈ c.moved → k.time = o.kData
  known : ∀ n k, o.contacts[n]? = some k → n ∈ c.known → n ∈ c.contacts ∧ Moving k.localKine ∧
    (k.time = (if c.pending then o.kData - 1 else o.kData) ∨ (c.pending = true ∧ n ∈ c.moved))

theorem feed_pending (c : Client) : c.feed.pending = true := by
  unfold Client.feed; split_ifs with h
  · exact h
  · rfl

theorem feed_dt (c : Client) : c.feed.dt = c.dt := by unfold Client.feed; split_ifs <;> rfl
theorem feed_mass (c : Client) : c.feed.mass = c.mass := by unfold Client.feed; split_ifs <;> rfl
theorem feed_com (c : Client) : c.feed.com = c.com := by unfold Client.feed; split_ifs <;> rfl
theorem feed_seen (c : Client) : c.feed.seen = c.seen := by unfold Client.feed; split_ifs <;> rfl
theorem feed_contacts (c : Client) : c.feed.contacts = c.contacts := by unfold Client.feed; split_ifs <;> rfl
theorem feed_known (c : Client) : c.feed.known = c.known := by unfold Client.feed; split_ifs <;> rfl

/-- The start of an iteration. -/
theorem Sim.start (h : Sim nc ni c o) : Sim nc ni c.feed o.startNewIteration := by
  by_cases hk : o.kEst = o.kData
  · have hp : c.pending = false := by
      cases e : c.pending with
      | false => rfl
      | true => exact absurd hk (h.pending.1 e)
    have hf := h.fed.start.1
    have e : o.startNewIteration = { o with kData := o.kData + 1, nReal := 0, nIMU := 0 } := by rw [startNewIteration, if_pos hk]
    have ec : c.feed = { c with pending := true, given := ∅, moved := ∅ } := by rw [Client.feed, hp]; rfl
    rw [e] at hf ⊢
    rw [ec]
    refine { h with fed := hf, pending := ?_, given := ?_, moved := ?_, known := ?_ }
    · simp only [true_iff]; omega
    · intro _ n m hm
      have := h.fed.inv.2.imuTime m (List.mem_of_getElem? hm)
      simp only [Finset.notMem_empty, iff_false]
      omega
    · intro _ n k hk hn
      simp at hn
    · intro n k hkk hn
      obtain ⟨h1, h2, h3⟩ := h.known n k hkk hn
      refine ⟨h1, h2, Or.inl ?_⟩
      rw [hp] at h3
      simp at h3
      simp [h3]
  · have hp : c.pending = true := h.pending.2 hk
    have ec : c.feed = c := by rw [Client.feed, hp]; rfl
    rw [start_running hk, ec]
    exact h

/-- A call that changes nothing the client knows. -/
theorem Sim.same (h : Sim nc ni c o) (hi : Inv nc ni o') (hc : CovInv o') (hd : o'.accCov.PosDef ∧ o'.gyroCov.PosDef) (hdx : o'.dx.size = 18 + ni * 3 + 12 * nc)
    (hs : c.state = true → (∃ x t, o'.ekf.x = some (x, t) ∧ GoodState nc ni x) ∧ GoodState nc ni o'.x ∧ Moving o'.stateKin)
    (ha : (∃ x, Item o'.stateKin.linAcc x) ∧ ∃ x, Item o'.stateKin.angAcc x)
    (e : o' = { o' with kEst := o.kEst, kData := o.kData, imus := o.imus, contacts := o.contacts, abs := o.abs, nIMU := o.nIMU, nReal := o.nReal, dt := o.dt, mass := o.mass, com := o.com, comd := o.comd, comdd := o.comdd, sigma := o.sigma, sigmad := o.sigmad, inertia := o.inertia, inertiad := o.inertiad }) :
    Sim nc ni c o' := by
  have hf : Fed nc ni o' := by
    refine ⟨hi, hc, hdx, hd, ?_, ?_, ?_⟩
    · rw [e]; exact h.fed.imu
    · rw [e]; exact h.fed.con
    · rw [e]; exact h.fed.now
  refine ⟨hf, ?_, ?_, ?_, ?_, ?_, ?_, ?_, ?_, ?_, ha, hs, ?_, ?_, ?_, ?_, ?_, ?_, h.range, ?_, ?_⟩
  · rw [e]; exact h.dt
  · rw [e]; exact h.mass
  · rw [e]; exact h.com
  · rw [e]; exact h.inertia
  · rw [e]; exact h.comd
  · rw [e]; exact h.comdd
  · rw [e]; exact h.sigma
  · rw [e]; exact h.sigmad
  · rw [e]; exact h.inertiad
  · rw [e]; exact h.pending
  · rw [e]; exact h.steps
  · rw [e]; exact h.given
  · rw [e]; exact h.seen
  · rw [e]; exact h.len
  · rw [e]; exact h.contacts
  · rw [e]; exact h.moved
  · rw [e]; exact h.known

theorem Sim.setP (h : Sim nc ni c o) {l : List Block} (hr : o.tangentSize = 18 + ni * 3 + 12 * nc) (hc : CovInv o') (e : StateCov o o' l) : Sim nc ni c o' := by
  have hi := e.inv h.fed.inv
  obtain ⟨P, P', -, rfl, -⟩ := e
  exact h.same hi hc h.fed.defaults h.fed.dx h.state h.acc rfl

theorem Sim.setQ (h : Sim nc ni c o) {l : List Block} (hc : CovInv o') (e : ProcessCov o o' l) : Sim nc ni c o' := by
  have hi := e.inv h.fed.inv
  obtain ⟨P, P', -, rfl, -⟩ := e
  exact h.same hi hc h.fed.defaults h.fed.dx h.state h.acc rfl

theorem Sim.isSet (h : Sim nc ni c o) {n : ℕ} (hn : n ∈ c.contacts) : IsSet o n := by
  have := h.range n hn
  rw [← h.len] at this
  exact ⟨_, List.getElem?_eq_getElem this, (h.contacts n _ (List.getElem?_eq_getElem this)).2 hn⟩

theorem iso_posDef {d : ℝ} (h : 0 < d) : (iso d).PosDef := by
  unfold iso
  exact Matrix.PosDef.one.smul h

/-- A call that needs nothing. -/
theorem Sim.keeps (h : Sim nc ni c o) {op : Op} (hk : c.Keeps nc ni op) : ∃ o', Op.exec o op = .ok o' ∧ Sim nc ni c o' := by
  have hi := h.fed.inv
  have hcv := h.fed.cov
  have key : op.GoodCov → (∃ o', Op.exec o op = .ok o' ∧ (CovInv o' → Sim nc ni c o')) → ∃ o', Op.exec o op = .ok o' ∧ Sim nc ni c o' := by
    rintro hg ⟨o', e, he⟩
    exact ⟨o', e, he (covInv_exec op hg hi hcv e)⟩
  have setP : ∀ {f : Res Observer} {l : List Block}, (∃ o', f = .ok o' ∧ StateCov o o' l) → ∃ o', f = .ok o' ∧ (CovInv o' → Sim nc ni c o') := by
    rintro f l ⟨o', e, he⟩
    exact ⟨o', e, fun hc => h.setP (inv_tangentSize hi) hc he⟩
  have setQ : ∀ {f : Res Observer} {l : List Block}, (∃ o', f = .ok o' ∧ ProcessCov o o' l) → ∃ o', f = .ok o' ∧ (CovInv o' → Sim nc ni c o') := by
    rintro f l ⟨o', e, he⟩
    exact ⟨o', e, fun hc => h.setQ hc he⟩
  cases hk with
  | additionalWrench f t => exact key trivial ⟨_, rfl, fun hc => h.same (inv_exec (.setAdditionalWrench f t) hi rfl) hc h.fed.defaults h.fed.dx h.state h.acc rfl⟩
  | withUnmodeledWrench b => exact key trivial ⟨_, rfl, fun hc => h.same (inv_exec (.setWithUnmodeledWrench b) hi rfl) hc h.fed.defaults h.fed.dx h.state h.acc rfl⟩
  | withAcceleration b => exact key trivial ⟨_, rfl, fun hc => h.same (inv_exec (.setWithAccelerationEstimation b) hi rfl) hc h.fed.defaults h.fed.dx h.state h.acc rfl⟩
  | withGyroBias b => exact key trivial ⟨_, rfl, fun hc => h.same (inv_exec (.setWithGyroBias b) hi rfl) hc h.fed.defaults h.fed.dx h.state h.acc rfl⟩
  | jacobians b => exact key trivial ⟨_, rfl, fun hc => h.same (inv_exec (.useFiniteDifferencesJacobians b) hi rfl) hc h.fed.defaults h.fed.dx h.state h.acc rfl⟩
  | step v hv => exact key trivial ⟨_, rfl, fun hc => h.same (inv_exec (.setFiniteDifferenceStep v) hi rfl) hc h.fed.defaults hv h.state h.acc rfl⟩
  | imuDefault a g ha hg =>
    exact key ⟨ha.posSemidef, hg.posSemidef⟩ ⟨_, rfl, fun hc => h.same (inv_exec (.setIMUDefaultCovarianceMatrix a g) hi rfl) hc ⟨ha, hg⟩ h.fed.dx h.state h.acc rfl⟩
  | wrenchDefault B hB =>
    exact key hB ⟨_, rfl, fun hc => h.same (inv_exec (.setContactWrenchSensorDefaultCovarianceMatrix B) hi rfl) hc h.fed.defaults h.fed.dx h.state h.acc rfl⟩
  | poseDefault B hB =>
    exact key hB ⟨_, rfl, fun hc => h.same (inv_exec (.setAbsolutePoseSensorDefaultCovarianceMatrix B) hi rfl) hc h.fed.defaults h.fed.dx h.state h.acc rfl⟩
  | sensorsDefault =>
    exact key trivial ⟨_, rfl, fun hc => h.same (inv_exec .resetSensorsDefaultCovMat hi rfl) hc ⟨iso_posDef (by norm_num), iso_posDef (by norm_num)⟩ h.fed.dx h.state h.acc rfl⟩
  | kineInit B hB =>
    refine key (psd_dm hB) ⟨{ o with kineInit := B }, ?_, fun hc => ?_⟩
    · simp only [Op.exec, setKinematicsInitCovarianceDefault, dm]; rfl
    · have e : Op.exec o (.setKinematicsInitCovarianceDefault (dm B)) = .ok { o with kineInit := B } := by simp only [Op.exec, setKinematicsInitCovarianceDefault, dm]; rfl
      exact h.same (inv_exec _ hi e) hc h.fed.defaults h.fed.dx h.state h.acc rfl
  | gyroInit B hB =>
    exact key hB ⟨_, rfl, fun hc => h.same (inv_exec (.setGyroBiasInitCovarianceDefault B) hi rfl) hc h.fed.defaults h.fed.dx h.state h.acc rfl⟩
  | wrenchInit B hB =>
    exact key hB ⟨_, rfl, fun hc => h.same (inv_exec (.setUnmodeledWrenchInitCovMatDefault B) hi rfl) hc h.fed.defaults h.fed.dx h.state h.acc rfl⟩
  | contactInit B hB =>
    exact key hB ⟨_, rfl, fun hc => h.same (inv_exec (.setContactInitCovMatDefault B) hi rfl) hc h.fed.defaults h.fed.dx h.state h.acc rfl⟩
  | stateCov P hP =>
    have e : Op.exec o (.setStateCovarianceMat ⟨_, _, P⟩) = .ok { o with ekf := { o.ekf with st := { o.ekf.st with pr := ⟨_, _, P⟩ } } } := by
      have : o.ekf.st.checkP ⟨_, _, P⟩ = true := by rw [KData.checkP, hi.2.ekf.nt]; simp
      simp only [Op.exec, setStateCovarianceMat, withP, KF.setStateCovariance, this, Res.assert_true, Res.ok_bind]
    exact key (isPSD_mk.2 hP) ⟨_, e, fun hc => h.same (inv_exec _ hi e) hc h.fed.defaults h.fed.dx h.state h.acc rfl⟩
  | processCov P hP =>
    have e : Op.exec o (.setProcessNoiseCovarianceMat ⟨_, _, P⟩) = .ok { o with ekf := { o.ekf with st := { o.ekf.st with q := ⟨_, _, P⟩ } } } := by
      have : o.ekf.st.checkQ ⟨_, _, P⟩ = true := by rw [KData.checkQ, hi.2.ekf.nt]; simp
      simp only [Op.exec, setProcessNoiseCovarianceMat, withQ, KF.setQ, this, Res.assert_true, Res.ok_bind]
    exact key (isPSD_mk.2 hP) ⟨_, e, fun hc => h.same (inv_exec _ hi e) hc h.fed.defaults h.fed.dx h.state h.acc rfl⟩
  | kineCov B hB => exact key (psd_dm hB) (setP ((sets_comp hi .position range_kine B).elim hi trivial))
  | gyroCov B i hi' hB => exact key hB (setP ((sets_comp hi (.gyroBias i) (range_gyro i) B).elim hi hi'))
  | gyroProc B i hi' hB => exact key hB (setQ ((setsQ_comp hi (.gyroBias i) (range_gyro i) B).elim hi hi'))
  | wrenchCov B hB => exact key hB (setP ((sets_comp hi .unmodeledForce range_wrench B).elim hi trivial))
  | wrenchProc B hB => exact key hB (setQ ((setsQ_comp hi .unmodeledForce range_wrench B).elim hi trivial))
  | contactCov B n hn hB => exact key hB (setP ((sets_comp hi (.contactPosition n) (range_contact n) B).elim hi (h.isSet hn)))
  | contactProc B n hn hB => exact key hB (setQ ((setsQ_comp hi (.contactPosition n) (range_contact n) B).elim hi (h.isSet hn)))
  | resetState => exact key trivial (setP (resetState_all hi))
  | resetStateKine => exact key trivial (setP ((sets_comp hi .position range_kine _).elim hi trivial))
  | resetStateGyro i hi' => exact key trivial (setP ((sets_comp hi (.gyroBias i) (range_gyro i) _).elim hi hi'))
  | resetStateWrench => exact key trivial (setP ((sets_comp hi .unmodeledForce range_wrench _).elim hi trivial))
  | resetStateContacts => exact key trivial (setP (resetStateContacts_all hi))
  | resetStateContact n hn => exact key trivial (setP ((sets_contact hi n).elim hi (h.isSet hn)))
  | resetProcess => exact key trivial (setQ (resetProcess_all hi))
  | resetProcessKine => exact key trivial (setQ ((setsQ_comp hi .position range_kine _).elim hi trivial))
  | resetProcessGyro i hi' => exact key trivial (setQ ((setsQ_comp hi (.gyroBias i) (range_gyro i) _).elim hi hi'))
  | resetProcessWrench => exact key trivial (setQ ((setsQ_comp hi .unmodeledForce range_wrench _).elim hi trivial))
  | resetProcessContacts => exact key trivial (setQ (resetProcessContacts_all hi))
  | resetProcessContact n hn => exact key trivial (setQ ((setsQ_contact hi n).elim hi (h.isSet hn)))

/-! ## The other calls -/

theorem derived_live {α : Type} [AddCommGroup α] [Module ℝ α] {o : Observer} {i d : Option (α × Int)} {v : α} (hi : i.isSome = true) (hd : d.isSome = true) (hdt : o.dt ≠ 0) :
    ∃ d', o.derived i d v = .ok d' ∧ d'.isSome = true := by
  obtain ⟨old, rfl⟩ := Option.isSome_iff_exists.1 hi
  simp only [derived, ix, Res.ok_bind]
  split_ifs with ht
  · refine ⟨some ((1 / (o.dt * ((o.kData - old.2 : Int) : ℝ))) • (v - old.1), o.kData), ?_, rfl⟩
    rw [derivate, if_neg (mul_ne_zero hdt (by exact_mod_cast (by omega : o.kData - old.2 ≠ 0)))]
    rfl
  · exact ⟨d, rfl, hd⟩

theorem isSome_of_ne {α : Type} {a : Option α} (h : a ≠ none) : a.isSome = true := Option.isSome_iff_ne_none.2 h

theorem Sim.body (h : Sim nc ni c o) (hd : c.Dynamics) : ∃ b, o.body = .ok b ∧ o.mass ≠ 0 ∧ (inertiaAtOrigin b o.mass).det ≠ 0 := by
  obtain ⟨hm, p, hp, hdet⟩ := hd
  have h1 := h.com
  have h2 := h.inertia
  rw [hp] at h1
  obtain ⟨⟨cp, ct⟩, ec, rfl⟩ := Option.map_eq_some_iff.1 h1
  obtain ⟨⟨I, It⟩, eI, e2⟩ := Option.map_eq_some_iff.1 h2
  obtain ⟨cd, ecd⟩ := Option.isSome_iff_exists.1 h.comd
  obtain ⟨cdd, ecdd⟩ := Option.isSome_iff_exists.1 h.comdd
  obtain ⟨s, es⟩ := Option.isSome_iff_exists.1 h.sigma
  obtain ⟨sd, esd⟩ := Option.isSome_iff_exists.1 h.sigmad
  obtain ⟨Id, eId⟩ := Option.isSome_iff_exists.1 h.inertiad
  refine ⟨⟨cp, cd.1, cdd.1, s.1, sd.1, I, Id.1⟩, ?_, by rw [h.mass]; exact hm, ?_⟩
  · simp only [Observer.body, ec, eI, ecd, ecdd, es, esd, eId, ix, Res.ok_bind]
  · convert! hdet using 2
    simp only [inertiaAtOrigin, Client.effective, h.mass]
    congr 1
    simp only at e2
    congr 1
    ext i j
    fin_cases i <;> fin_cases j <;> simp [skewSymmetric2, vecMulVec, Matrix.trace, Matrix.mul_apply, Fin.sum_univ_three] <;> ring

theorem Sim.ready (h : Sim nc ni c o) (hd : c.Dynamics) (hc : c.ContactsKnown) : Ready nc ni o := by
  refine ⟨h.fed.inv.2.imuPos, h.fed.inv.1.1, h.fed.inv.1.2, h.fed.inv.2.imuLen, fun k hk hs => ?_, h.body hd⟩
  obtain ⟨i, hi⟩ := List.mem_iff_getElem?.1 hk
  obtain ⟨a1, a2, a3⟩ := h.fed.inv.2.conIdx i k hi hs
  have hlen := h.range i ((h.contacts i k hi).1 hs)
  refine ⟨⟨19 + ni * 3 + i * 13, 18 + ni * 3 + i * 12, ?_, ?_, by omega, by nlinarith, by nlinarith⟩, ?_, Option.isSome_iff_exists.1 a3⟩
  · have : decide (k.stateIndex > 0) = true := by rw [a1]; simp; omega
    rw [Contact.index, this, a1]; simp; omega
  · have : decide (k.stateIndexTangent > 0) = true := by rw [a2]; simp; omega
    rw [Contact.indexTangent, this, a2]; simp; omega
  · rcases hc i ((h.contacts i k hi).1 hs) with hn | ⟨hp, hn⟩
    · exact (h.known i k hi hn).2.1
    · exact (h.fed.now (h.pending.1 hp)).2.2.2.2 k hk (h.moved hp i k hi hn)

theorem Sim.estimate (h : Sim nc ni c o) (hs : c.state = true) (hd : c.Dynamics) (hc : c.ContactsKnown) : ∃ o', o.estimateAccelerations = .ok o' ∧ Sim nc ni c o' := by
  have hr := h.ready hd hc
  obtain ⟨s1, s2, ⟨p, R, v, w, x, y, hk⟩⟩ := h.state hs
  obtain ⟨f, ew⟩ := addWrench_live hr s2.size (o.addForce, o.addTorque)
  obtain ⟨b, hb, hm, hdt⟩ := hr.body
  obtain ⟨a, α, k', ec, hk'⟩ := computeAccelerations_live (o := o) (F := f.1) (M := f.2) hk hb hm hdt
  have e : o.estimateAccelerations = .ok { o with stateKin := { k' with linAcc := k'.linAcc.assign a, angAcc := k'.angAcc.assign α } } := by
    rw [estimateAccelerations, ew, Res.ok_bind, ec, Res.ok_bind]
  refine ⟨_, e, h.same (inv_estimateAccelerations h.fed.inv e) (covInv_estimateAccelerations h.fed.cov e) h.fed.defaults h.fed.dx (fun _ => ⟨s1, s2, ?_⟩)
    ⟨⟨some a, rfl⟩, ⟨some α, rfl⟩⟩ rfl⟩
  exact ⟨p, R, v, w, some a, some α, hk'.pos, hk'.ori, hk'.linVel, hk'.angVel, rfl, rfl⟩

theorem GoodState.same {x y : DVec} (h : GoodState nc ni x) (hs : y.size = 19 + ni * 3 + nc * 13) (e : ∀ j, j < 13 → at1 y j = at1 x j) : GoodState nc ni y :=
  ⟨hs, h.quat.same fun j hj => e _ (by omega)⟩

theorem Sim.setGyroBias (h : Sim nc ni c o) (b : V3) {i : ℕ} (hi : i < ni) (r : Bool) : ∃ o', o.setGyroBias b i r = .ok o' ∧ Sim nc ni c o' := by
  obtain ⟨x, e, he⟩ := setGyroBias_live h.fed.inv b hi r
  have hi' := inv_setGyroBias h.fed.inv he
  obtain ⟨-, -, -, ⟨t, hs⟩, a1, -⟩ := setGyroBias_ok h.fed.inv he
  have hc := covInv_exec (.setGyroBias b i r) trivial h.fed.inv h.fed.cov he
  refine ⟨_, he, h.same hi' hc h.fed.defaults h.fed.dx (fun hst => ?_) h.acc rfl⟩
  obtain ⟨-, g2, g3⟩ := h.state hst
  have g4 := g2.same hi'.2.xSize fun j hj => a1 j (by omega)
  exact ⟨⟨_, t, hs, g4⟩, g4, g3⟩

theorem Sim.setStateUnmodeledWrench (h : Sim nc ni c o) (w : V6) {r : Bool} (hr : r = true → 0 < nc) :
    ∃ o', o.setStateUnmodeledWrench w r = .ok o' ∧ Sim nc ni c o' := by
  obtain ⟨x, e, he⟩ := setStateUnmodeledWrench_live h.fed.inv w hr
  have hi' := inv_setStateUnmodeledWrench h.fed.inv he
  obtain ⟨-, -, ⟨t, hs⟩, a1, -⟩ := setStateUnmodeledWrench_ok h.fed.inv he
  have hc := covInv_exec (.setStateUnmodeledWrench w r) trivial h.fed.inv h.fed.cov he
  refine ⟨_, he, h.same hi' hc h.fed.defaults h.fed.dx (fun hst => ?_) h.acc rfl⟩
  obtain ⟨-, g2, g3⟩ := h.state hst
  have g4 := g2.same hi'.2.xSize fun j hj => a1 j (by omega)
  exact ⟨⟨_, t, hs, g4⟩, g4, g3⟩

theorem Sim.setStateKinematics (h : Sim nc ni c o) {k : Kin} {b : Value} (hk : k.Has b) (hp : b.pos ≠ none) (ho : b.ori ≠ none) (hv : b.linVel ≠ none)
    (hw : b.angVel ≠ none) {f r : Bool} (hr : r = true → f = false ∨ c.contacts = ∅) :
    ∃ o', o.setStateKinematics k f r = .ok o' ∧ Sim nc ni { c with state := true } o' := by
  obtain ⟨bp, bo, bv, bw, bx, bz⟩ := b
  obtain ⟨p, rfl⟩ := Option.ne_none_iff_exists'.1 hp
  obtain ⟨R, rfl⟩ := Option.ne_none_iff_exists'.1 ho
  obtain ⟨v, rfl⟩ := Option.ne_none_iff_exists'.1 hv
  obtain ⟨w, rfl⟩ := Option.ne_none_iff_exists'.1 hw
  have hr' : r = true → f = false ∨ ∀ n, ¬ IsSet o n := by
    intro h1
    rcases hr h1 with h2 | h2
    · exact Or.inl h2
    · refine Or.inr fun n hn => ?_
      obtain ⟨m, hm, hs⟩ := hn
      have := (h.contacts n m hm).1 hs
      rw [h2] at this
      simp at this
  obtain ⟨x, e, k', he⟩ := setStateKinematics_live h.fed.inv hk hr'
  have hi' := inv_exec (.setStateKinematics k f r) h.fed.inv he
  have hc := covInv_exec (.setStateKinematics k f r) trivial h.fed.inv h.fed.cov he
  obtain ⟨q, k1, h1, -, h3, -, h5, -, ⟨t, hs⟩, a1, -⟩ := setStateKinematics_ok h.fed.inv hk he
  have h5 : k' = { k with ori := k1 } := h5
  subst h5
  have g4 : GoodState nc ni x := by
    refine ⟨hi'.2.xSize, ?_⟩
    have b3 := a1 3 (by omega)
    have b4 := a1 4 (by omega)
    have b5 := a1 5 (by omega)
    have b6 := a1 6 (by omega)
    dsimp only at b3 b4 b5 b6
    rw [UnitAt, b3, b4, b5, b6]
    simp only [Quat.normSq] at h1
    simp
    linarith
  have hmov : Moving { k with ori := k1 } := ⟨p, R, v, w, bx, bz, hk.setOri rfl h3⟩
  refine ⟨_, he, ?_⟩
  have hfed := h.fed
  refine { h with fed := ⟨hi', hc, hfed.dx, hfed.defaults, hfed.imu, hfed.con, hfed.now⟩, acc := ⟨⟨bx, hk.linAcc⟩, ⟨bz, hk.angAcc⟩⟩, state := fun _ => ⟨⟨_, t, hs, g4⟩, g4, hmov⟩ }

theorem Sim.setStateVector (h : Sim nc ni c o) {v : DVec} (r : Bool) (hv : Client.StateVector nc ni v) : ∃ o', o.setStateVector v r = .ok o' ∧ Sim nc ni { c with state := true } o' := by
  obtain ⟨f, rfl, hf⟩ := hv
  have hg : GoodState nc ni ⟨19 + ni * 3 + nc * 13, fun i => f i⟩ := by
    refine ⟨rfl, ?_⟩
    have h0 : ∀ j < 19, at1 (⟨19 + ni * 3 + nc * 13, fun i => f i⟩ : DVec) j = f j := by
      intro j hj
      rw [at1, dif_pos (by show j < 19 + ni * 3 + nc * 13; omega)]
    rw [UnitAt, h0 _ (by norm_num), h0 _ (by norm_num), h0 _ (by norm_num), h0 _ (by norm_num)]
    exact hf
  set v : DVec := ⟨19 + ni * 3 + nc * 13, fun i => f i⟩ with hv
  obtain ⟨o2, h2⟩ := pushState_some h.fed.inv (x := v) rfl o.stateKin
  have h3 : pushState { o with x := v } = .ok o2 := h2
  have hx2 : ∃ t, o2.ekf.x = some (v, t) := by
    simp only [pushState, Res.bind_eq_ok, Obs.setState] at h3
    obtain ⟨e1, ⟨_, -, t, -, h1⟩, h2⟩ := h3
    split_ifs at h1 <;> cases h1 <;> cases h2 <;> exact ⟨_, rfl⟩
  obtain ⟨x, y, u, rfl⟩ := pushState_ok h2
  obtain ⟨t, hx2⟩ := hx2
  obtain ⟨s, hs⟩ : ∃ s, v.seg 13 kineIndex = .ok s := ⟨_, by rw [DVec.seg, dif_pos (by show kineIndex + 13 ≤ 19 + ni * 3 + nc * 13; rw [kineIndex]; omega)]⟩
  set o3 : Observer := { o with x := v, ekf := { o.ekf with x := x, y := y, u := u }, stateKin := loaded o.stateKin v } with ho3
  have e3 : o.setStateVector v false = .ok o3 := by
    rw [Observer.setStateVector, h3]
    simp only [Res.ok_bind, updateKine, hs, fromVector_loaded _ hs]
    rfl
  obtain ⟨⟨la, hla⟩, ⟨aa, haa⟩⟩ := h.acc
  have hmov : Moving (loaded o.stateKin v) := by
    refine ⟨at3 v 0, Quat.toMat ⟨at1 v 6, at1 v 3, at1 v 4, at1 v 5⟩, at3 v 7, at3 v 10, la, aa, rfl, ?_, rfl, rfl, hla, haa⟩
    exact Ori.rep_q (by have := hg.quat; simp only [UnitAt] at this; simp only [Quat.normSq]; linarith) rfl
  have hs3 : Sim nc ni { c with state := true } o3 := by
    have hfed : Fed nc ni o3 := { h.fed with inv := inv_setStateVector h.fed.inv e3, cov := covInv_setStateVector h.fed.cov e3 }
    exact { h with fed := hfed, acc := ⟨⟨la, hla⟩, ⟨aa, haa⟩⟩, state := fun _ => ⟨⟨v, t, hx2, hg⟩, hg, hmov⟩ }
  cases r with
  | false => exact ⟨o3, e3, hs3⟩
  | true =>
    obtain ⟨o4, e4, c4⟩ := resetState_all hs3.fed.inv
    refine ⟨o4, ?_, hs3.setP (inv_tangentSize hs3.fed.inv) (covInv_resetStateCovarianceMat hs3.fed.cov e4) c4⟩
    rw [Observer.setStateVector, h3]
    simp only [Res.ok_bind, updateKine, hs, fromVector_loaded _ hs]
    rw [if_pos trivial]
    exact e4

theorem Sim.setIMU (h : Sim nc ni c o) {a g : V3} {cov : Option (M3 × M3)} {k : Kin} {n : ℕ} {b : Value} (hn : n < ni) (h1 : n ∉ c.feed.given) (hk : k.Has b)
    (hp : b.pos ≠ none) (ho : b.ori ≠ none) (hv : n ∈ c.seen → b.linVel ≠ none ∧ b.angVel ≠ none ∧ b.linAcc ≠ none) (hcov : ∀ p ∈ cov, p.1.PosDef ∧ p.2.PosDef) :
    ∃ o', o.setIMU a g cov k n = .ok (n, o') ∧ Sim nc ni { c.feed with given := insert n c.feed.given, seen := insert n c.seen } o' := by
  have hst := h.start
  have hkd : o.startNewIteration.kData = o.kEst + 1 := start_kData h.fed.inv
  have hk0 : 0 ≤ o.kEst := h.fed.inv.2.time0
  obtain ⟨o', e, hf, hE, hD, hR, m', hm', rfl⟩ := h.fed.setIMU (acc := a) (gyro := g) hn hk (isSome_of_ne hp) (isSome_of_ne ho) (by
    by_cases hs : n ∈ c.seen
    · obtain ⟨x, y, z⟩ := hv hs
      exact Or.inr ⟨isSome_of_ne x, isSome_of_ne y, isSome_of_ne z⟩
    · exact Or.inl fun m hm => (h.seen n m hm).2 hs) hcov (by
    intro m hm
    have t1 := hst.fed.inv.2.imuTime m (by rw [start_imus]; exact List.mem_of_getElem? hm)
    have t2 := (hst.given (feed_pending c) n m (by rw [start_imus]; exact hm))
    have : m.time ≠ o.startNewIteration.kData := fun h => h1 (t2.1 h)
    omega)
  refine ⟨_, e, { hst with fed := hf, given := ?_, seen := ?_ }⟩
  · intro _ j m hm
    simp only at hm
    by_cases hj : j = n
    · subst hj
      rw [List.getElem?_set_self (by rw [h.fed.inv.2.imuLen]; exact hn)] at hm
      cases hm
      simp [hm']
    · rw [List.getElem?_set_ne (Ne.symm hj)] at hm
      have := hst.given (feed_pending c) j m (by rw [start_imus]; exact hm)
      simp only [Finset.mem_insert, hj, false_or]
      exact this
  · intro j m hm
    simp only at hm
    by_cases hj : j = n
    · subst hj
      rw [List.getElem?_set_self (by rw [h.fed.inv.2.imuLen]; exact hn)] at hm
      cases hm
      have hm'' : m'.time = o.startNewIteration.kData := hm'
      simp [hm'', hkd]
      omega
    · rw [List.getElem?_set_ne (Ne.symm hj)] at hm
      have := h.seen j m hm
      simp only [Finset.mem_insert, hj, false_or]
      exact this

theorem Sim.contact (h : Sim nc ni c o) {k : Kin} {n : ℕ} {b : Value} (hn : n ∈ c.contacts) (hk : k.Has b) (hp : b.pos ≠ none) (ho : b.ori ≠ none)
    (hv : (b.linVel ≠ none ∧ b.angVel ≠ none) ∨ (c.dt ≠ 0 ∧ n ∈ c.known ∧ n ∉ c.feed.moved)) :
    ∃ o', o.updateContactWithNoSensor k n = .ok o' ∧ Sim nc ni { c.feed with moved := insert n c.feed.moved } o' := by
  have hst := h.start
  obtain ⟨cc, hc, hs⟩ := h.isSet hn
  have hc1 : o.startNewIteration.contacts[n]? = some cc := by rw [start_contacts]; exact hc
  obtain ⟨o', c', e, hf, hE, hD, hR, ⟨r, rfl⟩, cs, ct, cm⟩ := h.fed.noSensor hc hs hk (isSome_of_ne hp) (isSome_of_ne ho) (by
    rcases hv with ⟨x, y⟩ | ⟨h1, h2, h3⟩
    · exact Or.inl ⟨isSome_of_ne x, isSome_of_ne y⟩
    · obtain ⟨-, k2, k3⟩ := hst.known n cc hc1 (by rw [feed_known]; exact h2)
      rw [feed_pending] at k3
      rcases k3 with k3 | ⟨-, k3⟩
      · exact Or.inr ⟨by rw [h.dt]; exact h1, by simpa using k3, k2⟩
      · exact absurd k3 h3)
  have hlen : n < o.contacts.length := by rw [h.len]; exact h.range n hn
  refine ⟨_, e, { hst with fed := hf, len := by simp [h.len], contacts := ?_, moved := ?_, known := ?_ }⟩
  · intro j m hm
    simp only at hm
    by_cases hj : j = n
    · subst hj
      rw [List.getElem?_set_self hlen] at hm
      have hm := Option.some.inj hm
      subst hm
      simp only [cs, true_iff, feed_contacts]
      exact hn
    · rw [List.getElem?_set_ne (Ne.symm hj)] at hm
      exact hst.contacts j m (by rw [start_contacts]; exact hm)
  · intro hp j m hm hj'
    simp only at hm
    by_cases hj : j = n
    · subst hj
      rw [List.getElem?_set_self hlen] at hm
      have hm := Option.some.inj hm
      subst hm
      exact ct
    · rw [List.getElem?_set_ne (Ne.symm hj)] at hm
      simp only [Finset.mem_insert, hj, false_or] at hj'
      exact hst.moved hp j m (by rw [start_contacts]; exact hm) hj'
  · intro j m hm hj'
    simp only at hm
    by_cases hj : j = n
    · subst hj
      rw [List.getElem?_set_self hlen] at hm
      have hm := Option.some.inj hm
      subst hm
      refine ⟨by simp only [feed_contacts]; exact hn, cm, Or.inr ⟨feed_pending c, by simp⟩⟩
    · rw [List.getElem?_set_ne (Ne.symm hj)] at hm
      obtain ⟨k1, k2, k3⟩ := hst.known j m (by rw [start_contacts]; exact hm) hj'
      refine ⟨k1, k2, ?_⟩
      rcases k3 with k3 | ⟨k3, k4⟩
      · exact Or.inl k3
      · exact Or.inr ⟨k3, by simp [k4]⟩

theorem Sim.update (h : Sim nc ni c o) (hp : c.pending = true) (hs : c.state = true) (hd : c.Dynamics) (hc : c.contacts ⊆ c.moved) :
    ∃ o', o.update = .ok o' ∧ Sim nc ni { c with pending := false, given := ∅, moved := ∅, known := c.contacts, steps := c.steps + 1 } o' := by
  have hrun := h.pending.1 hp
  have hall : ∀ k ∈ o.contacts, k.isSet = true → k.time = o.kData := by
    intro k hk hks
    obtain ⟨i, hi⟩ := List.mem_iff_getElem?.1 hk
    exact h.moved hp i k hi (hc ((h.contacts i k hi).1 hks))
  obtain ⟨o', e, hf, hE, x, imus, contacts, abs, m, mt, ek, k, hx, ex, rfl, f1, f2, mk⟩ := h.fed.update (h.body hd) (h.state hs).1 hrun hall
  have hE' : o.kEst + 1 = o.kData := hE
  obtain ⟨p, R, v, w, la, aa, hk⟩ := id mk
  refine ⟨_, e, { h with fed := hf, acc := ⟨⟨la, hk.linAcc⟩, ⟨aa, hk.angAcc⟩⟩, state := fun _ => ⟨⟨x, _, ex, hx⟩, hx, mk⟩, pending := ?_, steps := ?_, given := ?_, seen := ?_, len := ?_, contacts := ?_, moved := ?_, known := ?_ }⟩
  · simp [hE']
  · have := h.steps; simp [this]
  · intro hh; cases hh
  · intro j m hm
    obtain ⟨m0, h0, i, rfl⟩ := forall₂_get f1 j m hm
    exact h.seen j m0 h0
  · simp only; rw [← f2.length_eq, h.len]
  · intro j m hm
    obtain ⟨m0, h0, i, rfl⟩ := forall₂_get f2 j m hm
    exact h.contacts j m0 h0
  · intro hh; cases hh
  · intro j m hm hj
    obtain ⟨m0, h0, i, rfl⟩ := forall₂_get f2 j m hm
    have hj' : m0.isSet = true := (h.contacts j m0 h0).2 hj
    have ht := hall m0 (List.mem_of_getElem? h0) hj'
    exact ⟨hj, (h.fed.now hrun).2.2.2.2 m0 (List.mem_of_getElem? h0) ht, Or.inl (by simpa using ht)⟩

theorem Sim.addContact (h : Sim nc ni c o) {pose : Kin} {cov : Option (M12 × M12)} {n : ℕ} {v : Visco} {b : Value} (hn : n < nc) (h1 : n ∉ c.contacts) (hk : pose.Has b)
    (hp : b.pos ≠ none) (ho : b.ori ≠ none) (hcov : ∀ p ∈ cov, p.1.PosSemidef ∧ p.2.PosSemidef) :
    ∃ o', o.addContact pose cov n v = .ok (n, o') ∧ Sim nc ni { c with contacts := insert n c.contacts } o' := by
  have hi := h.fed.inv
  have hfree : n ∉ o.getListOfContacts := by
    intro hm
    obtain ⟨k, hk, hs⟩ := (mem_list _ _).1 hm
    exact h1 ((h.contacts n k hk).1 hs)
  obtain ⟨n', o', e⟩ := addContact_live hi h.len hk (isSome_of_ne hp) (isSome_of_ne ho) cov n v (Or.inl ⟨by omega, by omega, by simpa using hfree⟩)
  have e' := e
  simp only [Observer.addContact, Res.bind_eq_ok] at e'
  obtain ⟨_, -, n'', hn', _, -, k, hc, _, hs, si, hsi, st, hst, r, -, x, hx, o1, h3, o2, h4, h5⟩ := e'
  cases h5
  rw [contactNumber, if_neg (by omega)] at hn'
  obtain rfl : n' = n := by have := Res.ok.inj hn'; omega
  have hc := rd_ok hc
  have hs : k.isSet = false := by simpa using Res.assert_ok hs
  have hsi' := (contactsIndex_ok hsi).2
  have hxs : si + n' * 13 + 13 ≤ o.x.size := by
    unfold DVec.setList at hx
    split_ifs at hx with hl
    unfold DVec.setSeg at hx
    split_ifs at hx with hl'
    exact hl'
  have hxx : x.size = o.x.size ∧ ∀ j, j < 19 → at1 x j = at1 o.x j := by
    have hl : (r.1 ++ List.replicate 6 (0 : ℝ)).length = 13 := by
      unfold DVec.setList at hx
      split_ifs at hx with hl
      exact hl
    obtain ⟨x', ex, sx, kx, -⟩ := setList_live (v := o.x) hl hxs
    rw [ex] at hx
    cases hx
    exact ⟨sx, fun j hj => kx j (Or.inl (by omega))⟩
  have hinv := inv_addContact hi e
  have hcv := covInv_addContact hcov h.fed.cov e
  have ex : o'.ekf.x = o.ekf.x := by
    simp only [withP, withQ, Res.bind_eq_ok, KF.setStateCovariance, KF.setQ] at h3 h4
    obtain ⟨_, -, _, ⟨_, -, e1⟩, e2⟩ := h3
    cases e1; cases e2
    obtain ⟨_, -, _, ⟨_, -, e1⟩, e2⟩ := h4
    cases e1; cases e2
    rfl
  have eo := withQ_eq h4
  rw [withP_eq h3] at eo
  have hlen : n' < o.contacts.length := by rw [h.len]; exact hn
  refine ⟨o', e, ?_⟩
  rw [eo] at hinv hcv ⊢
  set k' : Contact := { k with isSet := true, stateIndex := (si + n' * 13 : ℕ), stateIndexTangent := (st + n' * 12 : ℕ), absPose := pose, visco := some (newVisco o v) } with hk'
  have hsimple : ∀ x ∈ o.contacts.set n' k', x = k' ∨ x ∈ o.contacts := fun x hx => (mem_set_of hx).symm
  have hkm := List.mem_of_getElem? hc
  have hfed : Fed nc ni { o with contacts := o.contacts.set n' k', x := x, ekf := o'.ekf } := by
    refine ⟨hinv, hcv, h.fed.dx, h.fed.defaults, h.fed.imu, fun y hy => ?_, fun hr => ?_⟩
    · rcases hsimple y hy with rfl | hy
      · exact h.fed.con k hkm
      · exact h.fed.con y hy
    · obtain ⟨n1, n2, n3, n4, n5⟩ := h.fed.now hr
      refine ⟨n1, n2, n3, n4, fun y hy ht => ?_⟩
      rcases hsimple y hy with rfl | hy
      · exact n5 k hkm ht
      · exact n5 y hy ht
  refine { h with fed := hfed, state := ?_, len := by simp [h.len], contacts := ?_, range := ?_, moved := ?_, known := ?_ }
  · intro hs
    obtain ⟨s1, s2, s3⟩ := h.state hs
    refine ⟨by rw [ex]; exact s1, ⟨hxx.1.trans s2.size, s2.quat.same fun j hj => hxx.2 _ (by omega)⟩, s3⟩
  · intro j m hm
    simp only at hm
    by_cases hj : j = n'
    · subst hj
      rw [List.getElem?_set_self hlen] at hm
      have hm := Option.some.inj hm
      subst hm
      simp [hk']
    · rw [List.getElem?_set_ne (Ne.symm hj)] at hm
      have := h.contacts j m hm
      simp only [Finset.mem_insert, hj, false_or]
      exact this
  · intro j hj
    simp only [Finset.mem_insert] at hj
    rcases hj with rfl | hj
    · exact hn
    · exact h.range j hj
  · intro hp j m hm hj
    simp only at hm
    by_cases hj' : j = n'
    · subst hj'
      rw [List.getElem?_set_self hlen] at hm
      have hm := Option.some.inj hm
      subst hm
      exact h.moved hp j k hc hj
    · rw [List.getElem?_set_ne (Ne.symm hj')] at hm
      exact h.moved hp j m hm hj
  · intro j m hm hj
    simp only at hm
    by_cases hj' : j = n'
    · subst hj'
      exact absurd (h.known j k hc hj).1 h1
    · rw [List.getElem?_set_ne (Ne.symm hj')] at hm
      obtain ⟨k1, k2, k3⟩ := h.known j m hm hj
      exact ⟨by simp [k1], k2, k3⟩

/-! ## The body -/

theorem Sim.fedBody (h : Fed nc ni o) {a b d e f : Option (V3 × Int)} {i j : Option (M3 × Int)} :
    Fed nc ni { o with com := a, comd := b, comdd := d, sigma := e, sigmad := f, inertia := i, inertiad := j } :=
  ⟨h.inv, { h.cov with }, h.dx, h.defaults, h.imu, h.con, h.now⟩

theorem Sim.bodySet (h : Sim nc ni c o) {p : Option V3} {I : M3} {a b d e f : Option (V3 × Int)} {i j : Option (M3 × Int)} (ha : a.map Prod.fst = p) (hb : b.isSome = true)
    (hd : d.isSome = true) (he : e.isSome = true) (hf : f.isSome = true) (hi : i.map Prod.fst = some I) (hj : j.isSome = true) :
    Sim nc ni { c with com := p, inertia := I } { o with com := a, comd := b, comdd := d, sigma := e, sigmad := f, inertia := i, inertiad := j } :=
  { h with fed := Sim.fedBody h.fed, com := ha, inertia := hi, comd := hb, comdd := hd, sigma := he, sigmad := hf, inertiad := hj }

theorem isSome_of_map {α β : Type} {f : α → β} {a : Option α} {b : β} (h : a.map f = some b) : a.isSome = true := by
  cases a <;> simp_all

theorem feed_inertia (c : Client) : c.feed.inertia = c.inertia := by unfold Client.feed; split_ifs <;> rfl

theorem Sim.step {op : Op} (h : Sim nc ni c o) (hs : Client.Step nc ni c op c') : ∃ o', Op.exec o op = .ok o' ∧ Sim nc ni c' o' := by
  have hst := h.start
  cases hs with
  | keeps hk => exact h.keeps hk
  | samplingTime dt => exact ⟨_, rfl, { h with fed := ⟨h.fed.inv, { h.fed.cov with }, h.fed.dx, h.fed.defaults, h.fed.imu, h.fed.con, h.fed.now⟩, dt := rfl }⟩
  | mass m => exact ⟨_, rfl, { h with fed := ⟨h.fed.inv, { h.fed.cov with }, h.fed.dx, h.fed.defaults, h.fed.imu, h.fed.con, h.fed.now⟩, mass := rfl }⟩
  | inertia2 I Id => exact ⟨_, rfl, hst.bodySet hst.com hst.comd hst.comdd hst.sigma hst.sigmad rfl rfl⟩
  | inertiaVector2 I Id => exact ⟨_, rfl, hst.bodySet hst.com hst.comd hst.comdd hst.sigma hst.sigmad rfl rfl⟩
  | inertia I hdt =>
    obtain ⟨d, e, hd⟩ := derived_live (o := o.startNewIteration) (v := I) (isSome_of_map hst.inertia) hst.inertiad (by rw [hst.dt, feed_dt]; exact hdt)
    refine ⟨_, ?_, hst.bodySet hst.com hst.comd hst.comdd hst.sigma hst.sigmad (i := some (I, o.startNewIteration.kData)) rfl hd⟩
    simp only [Op.exec, Observer.setInertiaMatrix, e, Res.ok_bind]
  | inertiaVector I hdt =>
    obtain ⟨old, e⟩ := Option.isSome_iff_exists.1 (isSome_of_map hst.inertia)
    by_cases ht : old.2 < o.startNewIteration.kData
    · refine ⟨_, ?_, hst.bodySet hst.com hst.comd hst.comdd hst.sigma hst.sigmad (i := some (sym6 I, o.startNewIteration.kData))
        (j := some (sym6 ((1 / (o.startNewIteration.dt * ((o.startNewIteration.kData - old.2 : Int) : ℝ))) • (I - lower6 old.1)), o.startNewIteration.kData)) rfl rfl⟩
      simp only [Op.exec, Observer.setInertiaVector, e, ix, Res.ok_bind, if_pos ht]
      rw [derivate, if_neg (mul_ne_zero (by rw [hst.dt, feed_dt]; exact hdt) (by exact_mod_cast (by omega : o.startNewIteration.kData - old.2 ≠ 0)))]
      rfl
    · refine ⟨_, ?_, hst.bodySet hst.com hst.comd hst.comdd hst.sigma hst.sigmad (i := some (sym6 I, o.startNewIteration.kData)) rfl hst.inertiad⟩
      simp only [Op.exec, Observer.setInertiaVector, e, ix, Res.ok_bind, if_neg ht]
  | com3 p v a => exact ⟨_, rfl, hst.bodySet rfl rfl rfl hst.sigma hst.sigmad hst.inertia hst.inertiad⟩
  | com2 p v hdt =>
    obtain ⟨d, e, hd⟩ := derived_live (o := o.startNewIteration) (v := v) hst.comd hst.comdd (by rw [hst.dt, feed_dt]; exact hdt)
    refine ⟨_, ?_, hst.bodySet (a := some (p, o.startNewIteration.kData)) (b := some (v, o.startNewIteration.kData)) rfl rfl hd hst.sigma hst.sigmad hst.inertia hst.inertiad⟩
    simp only [Op.exec, Observer.setCenterOfMass2, e, Res.ok_bind]
  | com p hdt hp =>
    have hc := hst.com
    rw [feed_com] at hc
    obtain ⟨q, hq⟩ := Option.ne_none_iff_exists'.1 hp
    rw [hq] at hc
    obtain ⟨old, e⟩ := Option.isSome_iff_exists.1 (isSome_of_map hc)
    obtain ⟨oldd, ed⟩ := Option.isSome_iff_exists.1 hst.comd
    by_cases ht : old.2 < o.startNewIteration.kData
    · have hne : o.startNewIteration.dt * ((o.startNewIteration.kData - old.2 : Int) : ℝ) ≠ 0 :=
        mul_ne_zero (by rw [hst.dt, feed_dt]; exact hdt) (by exact_mod_cast (by omega : o.startNewIteration.kData - old.2 ≠ 0))
      set t := o.startNewIteration.dt * ((o.startNewIteration.kData - old.2 : Int) : ℝ) with htt
      refine ⟨_, ?_, hst.bodySet (a := some (p, o.startNewIteration.kData)) (b := some ((1 / t) • (p - old.1), o.startNewIteration.kData))
        (d := some ((1 / t) • ((1 / t) • (p - old.1) - oldd.1), o.startNewIteration.kData)) rfl rfl rfl hst.sigma hst.sigmad hst.inertia hst.inertiad⟩
      simp only [Op.exec, Observer.setCenterOfMass, e, ed, ix, Res.ok_bind, if_pos ht]
      rw [← htt, derivate, if_neg hne]
      simp only [Res.ok_bind]
      rw [derivate, if_neg hne]
      rfl
    · refine ⟨_, ?_, hst.bodySet (a := some (p, o.startNewIteration.kData)) rfl hst.comd hst.comdd hst.sigma hst.sigmad hst.inertia hst.inertiad⟩
      simp only [Op.exec, Observer.setCenterOfMass, e, ix, Res.ok_bind, if_neg ht]
  | momentum2 s d =>
    refine ⟨_, rfl, ?_⟩
    have := hst.bodySet hst.com hst.comd hst.comdd (e := some (s, o.startNewIteration.kData)) (f := some (d, o.startNewIteration.kData)) rfl rfl hst.inertia hst.inertiad
    exact this
  | momentum s hdt =>
    obtain ⟨d, e, hd⟩ := derived_live (o := o.startNewIteration) (v := s) hst.sigma hst.sigmad (by rw [hst.dt, feed_dt]; exact hdt)
    have := hst.bodySet hst.com hst.comd hst.comdd (e := some (s, o.startNewIteration.kData)) rfl hd hst.inertia hst.inertiad
    refine ⟨_, ?_, this⟩
    simp only [Op.exec, Observer.setAngularMomentum, e, Res.ok_bind]
  | stateVector v r hv => exact h.setStateVector r hv
  | kinematics k f r b hk hp ho hv hw hr => exact h.setStateKinematics hk hp ho hv hw hr
  | gyroBias b i r hi => exact h.setGyroBias b hi r
  | unmodeledWrench w r hr => exact h.setStateUnmodeledWrench w hr
  | imu a g cov k n b hn h1 hk hp ho hv hcov =>
    obtain ⟨o', e, h'⟩ := h.setIMU (a := a) (g := g) hn h1 hk hp ho hv hcov
    refine ⟨o', ?_, h'⟩
    simp only [Op.exec, e, Res.ok_bind]
  | addContact k cov n v b hn h1 hk hp ho hcov =>
    obtain ⟨o', e, h'⟩ := h.addContact (v := v) hn h1 hk hp ho hcov
    refine ⟨o', ?_, h'⟩
    simp only [Op.exec, e, Res.ok_bind]
  | contact k n b hn hk hp ho hv => exact h.contact hn hk hp ho hv
  | updateIdle hp =>
    refine ⟨o, ?_, h⟩
    have : o.kEst = o.kData := by
      by_contra hk
      rw [h.pending.2 hk] at hp
      cases hp
    simp [Op.exec, Observer.update, this]
  | update hp hs hd hc => exact h.update hp hs hd hc
  | accelerations hs hd hc => exact h.estimate hs hd hc

end StateObs.KO
