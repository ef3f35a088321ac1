import Verif.KO.UpdLemmas
/-!
# Every call keeps the invariant
-/

namespace StateObs.KO
open StateObs Matrix Rot Kine KF

/-! ## Sizes -/

theorem integrateSeg_size {s x t s' : DVec} {i j : ℕ} (h : integrateSeg s x i t j = .ok s') : s'.size = s.size := by
  simp only [integrateSeg, Res.bind_eq_ok] at h
  obtain ⟨q, -, v, -, o, -, r, -, h⟩ := h
  exact DVec.setSeg_size h

namespace Observer

variable {nc ni : ℕ} {o o' : Observer}

theorem sumContact_size {x t s s' : DVec} {c : Contact} (h : sumContact x t s c = .ok s') : s'.size = s.size := by
  unfold sumContact at h
  split_ifs at h
  · simp only [Res.bind_eq_ok] at h
    obtain ⟨a, -, b, -, s1, h1, s2, h2, h3⟩ := h
    rw [DVec.addSeg_size h3, integrateSeg_size h2, DVec.addSeg_size h1]
  · cases h; rfl

theorem stateSum_size {x t x' : DVec} (h : o.stateSum x t = .ok x') : x'.size = x.size := by
  simp only [stateSum, Res.bind_eq_ok] at h
  obtain ⟨s1, h1, s2, h2, s3, h3, s4, h4, s5, h5, h6⟩ := h
  have e4 : s4.size = s3.size := by
    unfold opt at h4
    split_ifs at h4
    · refine Res.foldlM_inv (fun s => s.size = s3.size) (fun b a b' hb e => ?_) _ _ _ h4 rfl
      simp only [sumGyro, Res.bind_eq_ok] at e
      obtain ⟨_, -, _, -, e⟩ := e
      rw [DVec.addSeg_size e, hb]
    · cases h4; rfl
  have e5 : s5.size = s4.size := by
    unfold opt at h5
    split_ifs at h5
    · simp only [sumWrench, Res.bind_eq_ok] at h5
      obtain ⟨_, -, _, -, e⟩ := h5
      rw [DVec.addSeg_size e]
    · cases h5; rfl
  have e6 : x'.size = s5.size := Res.foldlM_inv (fun s => s.size = s5.size) (fun b a b' hb e => by rw [sumContact_size e, hb]) _ _ _ h6 rfl
  rw [e6, e5, e4, DVec.addSeg_size h3, integrateSeg_size h2, DVec.addSeg_size h1]

theorem contactDynamics_size {a a' : DVec × Kin} {c : Contact} (h : contactDynamics a c = .ok a') : a'.1.size = a.1.size := by
  unfold contactDynamics at h
  split_ifs at h
  · simp only [Res.bind_eq_ok] at h
    obtain ⟨_, -, _, -, _, -, _, -, _, -, _, -, _, -, _, -, _, -, _, -, x1, h1, _, -, _, -, _, -, x2, h2, h3⟩ := h
    cases h3
    rw [DVec.setSeg_size h2, DVec.setSeg_size h1]
  · cases h; rfl

theorem stateDynamics_size {x x' : DVec} (h : o.stateDynamics x = .ok x') : x'.size = x.size := by
  simp only [stateDynamics, Res.bind_eq_ok] at h
  obtain ⟨_, -, _, -, _, -, x1, h1, a, h2, h3⟩ := h
  cases h3
  have := Res.foldlM_inv (fun a : DVec × Kin => a.1.size = x1.size) (fun b c b' hb e => by rw [contactDynamics_size e, hb]) _ _ _ h2 rfl
  rw [this, DVec.setList_size h1]

/-! ## `update()` -/

theorem packIMUs_forall {k : Int} : ∀ {l : List IMU} {p : Pack} {r : List IMU × Pack}, packIMUs k l p = .ok r →
    List.Forall₂ (fun m m' => ∃ j, m' = { m with measIndex := j }) l r.1
  | [], p, r, h => by cases h; exact .nil
  | m :: l, p, r, h => by
    unfold packIMUs at h
    split_ifs at h
    · simp only [Res.bind_eq_ok] at h
      obtain ⟨_, -, _, -, _, -, _, -, _, -, _, -, r', h1, h2⟩ := h
      cases h2
      exact .cons ⟨_, rfl⟩ (packIMUs_forall h1)
    · simp only [Res.bind_eq_ok] at h
      obtain ⟨r', h1, h2⟩ := h
      cases h2
      exact .cons ⟨m.measIndex, rfl⟩ (packIMUs_forall h1)

theorem packContacts_forall : ∀ {l : List Contact} {p : Pack} {r : List Contact × Pack}, packContacts l p = .ok r →
    List.Forall₂ (fun m m' => ∃ j, m' = { m with measIndex := j }) l r.1
  | [], p, r, h => by cases h; exact .nil
  | m :: l, p, r, h => by
    unfold packContacts at h
    split_ifs at h
    · simp only [Res.bind_eq_ok] at h
      obtain ⟨_, -, _, -, _, -, _, -, r', h1, h2⟩ := h
      cases h2
      exact .cons ⟨_, rfl⟩ (packContacts_forall h1)
    · simp only [Res.bind_eq_ok] at h
      obtain ⟨r', h1, h2⟩ := h
      cases h2
      exact .cons ⟨m.measIndex, rfl⟩ (packContacts_forall h1)

theorem forall₂_mem {α β : Type} {R : α → β → Prop} : ∀ {l : List α} {l' : List β}, List.Forall₂ R l l' → ∀ b ∈ l', ∃ a ∈ l, R a b
  | _, _, .nil, b, hb => by simp at hb
  | _, _, .cons h t, b, hb => by
    rcases List.mem_cons.1 hb with rfl | hb
    · exact ⟨_, List.mem_cons_self, h⟩
    · obtain ⟨a, ha, hr⟩ := forall₂_mem t b hb
      exact ⟨a, List.mem_cons_of_mem _ ha, hr⟩

theorem forall₂_get {α β : Type} {R : α → β → Prop} : ∀ {l : List α} {l' : List β}, List.Forall₂ R l l' → ∀ (i : ℕ) b, l'[i]? = some b → ∃ a, l[i]? = some a ∧ R a b
  | _, _, .nil, i, b, hb => by simp at hb
  | _, _, .cons h t, i, b, hb => by
    cases i with
    | zero => simp at hb; subst hb; exact ⟨_, rfl, h⟩
    | succ i =>
      simp at hb
      obtain ⟨a, ha, hr⟩ := forall₂_get t i b hb
      exact ⟨a, by simpa using ha, hr⟩

theorem packPose_time {p : Pack} {r : AbsPose × Pack} (h : o.packPose p = .ok r) : r.1.time = o.abs.time := by
  unfold packPose at h
  split_ifs at h
  · simp only [Res.bind_eq_ok] at h
    obtain ⟨_, -, _, -, _, -, _, -, _, -, h⟩ := h
    cases h; rfl
  · cases h; rfl

theorem buildMeasurement_ok {y : DVec} {cov : DMat} (h : o.buildMeasurement = .ok (o', y, cov)) :
    ∃ imus contacts abs m mt, o' = { o with measSize := m, measTangentSize := mt, imus := imus, contacts := contacts, abs := abs } ∧
      List.Forall₂ (fun m m' => ∃ j, m' = { m with measIndex := j }) o.imus imus ∧
      List.Forall₂ (fun m m' => ∃ j, m' = { m with measIndex := j }) o.contacts contacts ∧ abs.time = o.abs.time := by
  simp only [buildMeasurement, Res.bind_eq_ok] at h
  obtain ⟨_, -, n, -, i, h1, c, h2, a, h3, y', -, h4⟩ := h
  cases h4
  exact ⟨_, _, _, _, _, rfl, packIMUs_forall h1, packContacts_forall h2, packPose_time h3⟩

theorem inv_buildMeasurement {y : DVec} {cov : DMat} (hi : Inv nc ni o) (h : o.buildMeasurement = .ok (o', y, cov)) :
    Inv nc ni o' ∧ o'.kEst = o.kEst ∧ o'.kData = o.kData := by
  obtain ⟨imus, contacts, abs, m, mt, rfl, h1, h2, h3⟩ := buildMeasurement_ok h
  refine ⟨⟨hi.1, { hi.2 with imuLen := ?_, conLen := ?_, conIdx := ?_, conSensor := ?_, imuTime := ?_, conTime := ?_, absTime := ?_ }⟩, rfl, rfl⟩
  · simpa [← h1.length_eq] using hi.2.imuLen
  · rcases hi.2.conLen with e | e
    · left; simpa [← h2.length_eq] using e
    · right
      rw [e] at h2
      cases h2; rfl
  · intro i c hc
    obtain ⟨c', hc', j, rfl⟩ := forall₂_get h2 i c hc
    exact hi.2.conIdx i c' hc'
  · intro c hc
    obtain ⟨c', hc', j, rfl⟩ := forall₂_mem h2 c hc
    exact hi.2.conSensor c' hc'
  · intro c hc
    obtain ⟨c', hc', j, rfl⟩ := forall₂_mem h1 c hc
    exact hi.2.imuTime c' hc'
  · intro c hc
    obtain ⟨c', hc', j, rfl⟩ := forall₂_mem h2 c hc
    exact hi.2.conTime c' hc'
  · dsimp only; rw [h3]; exact hi.2.absTime

theorem inv_estimateAccelerations (hi : Inv nc ni o) (h : o.estimateAccelerations = .ok o') : Inv nc ni o' := by
  simp only [estimateAccelerations, Res.bind_eq_ok] at h
  obtain ⟨_, -, _, -, h⟩ := h
  cases h
  exact hi

/-- The filter after `update()`. -/
theorem runFilter_ekf {N NT : ℕ} {y : DVec} {cov : DMat} {e : KFilter EKF.Ext} (hk : o.kData = o.kEst + 1) (he : EkfOk N NT o.ekf o.kEst)
    (h : o.runFilter y cov = .ok e) : EkfOk N NT e o.kData := by
  obtain ⟨v, xb, yb, xhat, inn, A, C, Q, P0, R, P, K, st, hx, hxb, -, -, -, -, hQ, -, -, -, hM, har, hcor, ex, epr, eq, ⟨en, ent, ep⟩, exb, eyb, ey, -⟩ := runFilter_ok hk he h
  obtain ⟨hP, -, -, hs⟩ := correct_size hM hcor
  refine ⟨en, ent, ep, ⟨xhat, ex, ?_⟩, by rw [epr]; exact hP, by rw [eq]; exact he.q, fun v t hv => ?_, fun v t hv => ?_, Or.inr ?_⟩
  · rw [har] at hs
    obtain ⟨v', hv', hsz⟩ := he.x
    rw [hx] at hv'
    cases hv'
    rw [stateSum_size hs, stateDynamics_size hxb, hsz]
  · rw [exb] at hv; cases hv; exact le_rfl
  · rw [eyb] at hv; cases hv; exact le_rfl
  · rw [ey]; exact ⟨rfl, rfl⟩

theorem inv_update (hi : Inv nc ni o) (h : o.update = .ok o') : Inv nc ni o' := by
  unfold update at h
  split_ifs at h with hk
  · simp only [Res.bind_eq_ok] at h
    obtain ⟨⟨o1, y, cov⟩, h1, e, h2, h3⟩ := h
    obtain ⟨hi1, hk1, hk2⟩ := inv_buildMeasurement hi h1
    have hkk : o1.kData = o1.kEst + 1 := by have := hi.2.time; simp only [hk1, hk2]; omega
    have he := runFilter_ekf hkk hi1.2.ekf h2
    simp only [afterFilter, Res.bind_eq_ok] at h3
    obtain ⟨x, hx, o2, h4, h5⟩ := h3
    obtain ⟨v, hv, hvs⟩ := he.x
    rw [hv] at hx
    obtain rfl : v = x := Res.ok.inj hx
    have hi2 : Inv nc ni { o1 with ekf := e, x := v, kEst := o1.kEst + 1, stateKin := o1.stateKin.reset } :=
      ⟨hi1.1, { hi1.2 with
        xSize := hvs
        ekf := by dsimp only; rw [← hkk]; exact he
        time0 := by have := hi1.2.time0; dsimp only; omega
        time := Or.inl hkk }⟩
    have hi3 := inv_updateKine hi2 h4
    split_ifs at h5
    · exact inv_estimateAccelerations hi3 h5
    · cases h5; exact hi3
  · cases h; exact hi

/-! ## Setters -/

theorem inv_resetStateContactCovMat {n : ℕ} (hi : Inv nc ni o) (h : o.resetStateContactCovMat n = .ok o') : Inv nc ni o' := by
  unfold resetStateContactCovMat at h
  split at h
  · cases h
  · simp only [Res.bind_eq_ok] at h
    obtain ⟨_, -, h⟩ := h
    exact inv_withP hi h

theorem inv_resetStateContactsCovMat (hi : Inv nc ni o) (h : o.resetStateContactsCovMat = .ok o') : Inv nc ni o' := by
  refine Res.foldlM_inv (Inv nc ni) (fun b a b' hb e => ?_) _ _ _ h hi
  simp only [resetStateContactIfSet, Res.bind_eq_ok] at e
  obtain ⟨c, -, e⟩ := e
  split_ifs at e
  · exact inv_resetStateContactCovMat hb e
  · cases e; exact hb

theorem inv_resetStateCovarianceMat (hi : Inv nc ni o) (h : o.resetStateCovarianceMat = .ok o') : Inv nc ni o' := by
  simp only [resetStateCovarianceMat, Res.bind_eq_ok] at h
  obtain ⟨o1, h1, o2, h2, o3, h3, h4⟩ := h
  refine inv_resetStateContactsCovMat (inv_withP (Res.foldlM_inv (Inv nc ni) (fun b a b' hb e => ?_) _ _ _ h2 (inv_withP hi h1)) h3) h4
  simp only [resetStateGyroBiasIfTime, Res.bind_eq_ok] at e
  obtain ⟨c, -, e⟩ := e
  split_ifs at e
  · exact inv_withP hb e
  · cases e; exact hb

theorem inv_resetProcessContactCovMat {n : ℕ} (hi : Inv nc ni o) (h : o.resetProcessContactCovMat n = .ok o') : Inv nc ni o' := by
  simp only [resetProcessContactCovMat, Res.bind_eq_ok] at h
  obtain ⟨_, -, _, -, _, -, h⟩ := h
  exact inv_withQ hi h

theorem inv_resetProcessContactsCovMat (hi : Inv nc ni o) (h : o.resetProcessContactsCovMat = .ok o') : Inv nc ni o' := by
  refine Res.foldlM_inv (Inv nc ni) (fun b a b' hb e => ?_) _ _ _ h hi
  simp only [resetProcessContactIfSet, Res.bind_eq_ok] at e
  obtain ⟨c, -, e⟩ := e
  split_ifs at e
  · exact inv_resetProcessContactCovMat hb e
  · cases e; exact hb

theorem inv_resetProcessCovarianceMat (hi : Inv nc ni o) (h : o.resetProcessCovarianceMat = .ok o') : Inv nc ni o' := by
  simp only [resetProcessCovarianceMat, Res.bind_eq_ok] at h
  obtain ⟨o1, h1, o2, h2, o3, h3, h4⟩ := h
  exact inv_resetProcessContactsCovMat (inv_withQ (Res.foldlM_inv (Inv nc ni) (fun b a b' hb e => inv_withQ hb e) _ _ _ h2 (inv_withQ hi h1)) h3) h4

theorem inv_setStateKinematics {k : Kin} {f c : Bool} (hi : Inv nc ni o) (h : o.setStateKinematics k f c = .ok o') : Inv nc ni o' := by
  simp only [setStateKinematics, Res.bind_eq_ok] at h
  obtain ⟨_, -, r, -, x, -, x2, -, o1, h1, h2⟩ := h
  have := inv_pushState hi h1
  split_ifs at h2
  · exact inv_withP this h2
  · cases h2; exact this

theorem inv_setGyroBias {b : V3} {i : ℕ} {c : Bool} (hi : Inv nc ni o) (h : o.setGyroBias b i c = .ok o') : Inv nc ni o' := by
  simp only [setGyroBias, Res.bind_eq_ok] at h
  obtain ⟨_, -, x, -, o1, h1, h2⟩ := h
  have := inv_pushState' hi h1
  split_ifs at h2
  · exact inv_withP this h2
  · cases h2; exact this

theorem inv_setStateUnmodeledWrench {w : V6} {c : Bool} (hi : Inv nc ni o) (h : o.setStateUnmodeledWrench w c = .ok o') : Inv nc ni o' := by
  simp only [setStateUnmodeledWrench, Res.bind_eq_ok] at h
  obtain ⟨_, -, x, -, o1, h1, h2⟩ := h
  have := inv_pushState' hi h1
  split_ifs at h2
  · exact inv_withP this h2
  · cases h2; exact this

theorem inv_setStateVector {w : DVec} {c : Bool} (hi : Inv nc ni o) (h : o.setStateVector w c = .ok o') : Inv nc ni o' := by
  simp only [setStateVector, Res.bind_eq_ok] at h
  obtain ⟨o1, h1, o2, h2, h3⟩ := h
  have := inv_updateKine (inv_pushState' hi h1) h2
  split_ifs at h3
  · exact inv_resetStateCovarianceMat this h3
  · cases h3; exact this

/-! ## Sensors and inputs -/

theorem inv_setIMU {a g : V3} {cov : Option (M3 × M3)} {k : Kin} {num : Int} {n : ℕ} (hi : Inv nc ni o) (h : o.setIMU a g cov k num = .ok (n, o')) :
    Inv nc ni o' := by
  simp only [setIMU, Res.bind_eq_ok] at h
  obtain ⟨n', h1, m, h2, kin, h3, h4⟩ := h
  cases h4
  exact inv_setImu (inv_start hi) _ _ le_rfl _

theorem selectContact_ok {n : ℕ} {c : Contact} (h : o.selectContact n = .ok c) : n < o.maxContacts ∧ o.contacts[n]? = some c ∧ c.isSet = true := by
  simp only [selectContact, Res.bind_eq_ok] at h
  obtain ⟨_, h1, c', h2, _, h3, h4⟩ := h
  cases h4
  refine ⟨by simpa using Res.assert_ok h1, ?_, Res.assert_ok h3⟩
  unfold rd at h2
  split at h2
  · cases h2; assumption
  · cases h2

theorem inv_updateContactWithWrenchSensor {w : V6} {cov : Option M6} {k : Kin} {n : ℕ} (hi : Inv nc ni o)
    (h : o.updateContactWithWrenchSensor w cov k n = .ok o') : Inv nc ni o' := by
  simp only [updateContactWithWrenchSensor, Res.bind_eq_ok] at h
  obtain ⟨c, h1, kin, h2, h3⟩ := h
  obtain ⟨-, hc, hs⟩ := selectContact_ok h1
  cases h3
  exact inv_setContact (inv_start hi) n c { c with localKine := _, wrench := _, time := _, sensorCov := _, withRealSensor := _ } hc (le_refl o.startNewIteration.kData) (fun _ => (inv_start hi).2.conIdx n c hc hs) (fun _ => hs) _

theorem inv_updateContactWithNoSensor {k : Kin} {n : ℕ} (hi : Inv nc ni o) (h : o.updateContactWithNoSensor k n = .ok o') : Inv nc ni o' := by
  simp only [updateContactWithNoSensor, Res.bind_eq_ok] at h
  obtain ⟨c, h1, kin, h2, h3⟩ := h
  obtain ⟨-, hc, hs⟩ := selectContact_ok h1
  cases h3
  exact inv_setContact (inv_start hi) n c { c with localKine := kin, time := o.startNewIteration.kData, withRealSensor := false } hc le_rfl (fun _ => (inv_start hi).2.conIdx n c hc hs)
    (fun h => by simp at h) _

theorem inv_setInertiaVector {I : V6} (hi : Inv nc ni o) (h : o.setInertiaVector I = .ok o') : Inv nc ni o' := by
  simp only [setInertiaVector, Res.bind_eq_ok] at h
  obtain ⟨old, -, h⟩ := h
  split_ifs at h
  · simp only [Res.bind_eq_ok] at h
    obtain ⟨_, -, h⟩ := h
    cases h; exact inv_start hi
  · cases h; exact inv_start hi

theorem inv_setCenterOfMass {c : V3} (hi : Inv nc ni o) (h : o.setCenterOfMass c = .ok o') : Inv nc ni o' := by
  simp only [setCenterOfMass, Res.bind_eq_ok] at h
  obtain ⟨old, -, h⟩ := h
  split_ifs at h
  · simp only [Res.bind_eq_ok] at h
    obtain ⟨_, -, _, -, _, -, h⟩ := h
    cases h; exact inv_start hi
  · cases h; exact inv_start hi

theorem inv_resetInputs (hi : Inv nc ni o) : Inv nc ni o.resetInputs := by
  have hk : o.kEst ≤ o.kData := by have := hi.2.time; omega
  refine ⟨hi.1, { hi.2 with imuLen := ?_, conLen := ?_, conIdx := ?_, conSensor := ?_, imuTime := ?_, conTime := ?_, absTime := hk }⟩
  · simpa [resetInputs] using hi.2.imuLen
  · simpa [resetInputs] using hi.2.conLen
  · intro i c hc
    simp only [resetInputs, List.getElem?_map, Option.map_eq_some_iff] at hc
    obtain ⟨c', hc', rfl⟩ := hc
    exact hi.2.conIdx i c' hc'
  · intro c hc
    simp only [resetInputs, List.mem_map] at hc
    obtain ⟨c', hc', rfl⟩ := hc
    exact hi.2.conSensor c' hc'
  · intro c hc
    simp only [resetInputs, List.mem_map] at hc
    obtain ⟨c', hc', rfl⟩ := hc
    exact hk
  · intro c hc
    simp only [resetInputs, List.mem_map] at hc
    obtain ⟨c', hc', rfl⟩ := hc
    exact hk

/-! ## Contacts -/

theorem rd_ok {α : Type} {a : Option α} {b : α} (h : rd a = .ok b) : a = some b := by
  unfold rd at h
  split at h
  · cases h; rfl
  · cases h

theorem contactsIndex_ok {i : ℕ} (h : o.contactsIndex = .ok i) : 0 < o.maxIMU ∧ i = 19 + o.maxIMU * 3 := by
  simp only [contactsIndex, unmodeledWrenchIndex, gyroBiasIndex, Res.bind_eq_ok, angVelIndex, linVelIndex, oriIndex, posIndex] at h
  obtain ⟨_, ⟨_, ⟨_, h1, h2⟩, h3⟩, h4⟩ := h
  cases h2; cases h3; cases h4
  exact ⟨by simpa using Res.assert_ok h1, by ring⟩

theorem contactsIndexTangent_ok {i : ℕ} (h : o.contactsIndexTangent = .ok i) : 0 < o.maxIMU ∧ i = 18 + o.maxIMU * 3 := by
  simp only [contactsIndexTangent, unmodeledWrenchIndexTangent, gyroBiasIndexTangent, Res.bind_eq_ok, angVelIndexTangent, linVelIndexTangent,
    oriIndexTangent, posIndexTangent] at h
  obtain ⟨_, ⟨_, ⟨_, h1, h2⟩, h3⟩, h4⟩ := h
  cases h2; cases h3; cases h4
  exact ⟨by simpa using Res.assert_ok h1, by ring⟩

theorem inv_addContact {pose : Kin} {cov : Option (M12 × M12)} {num : Int} {v : Visco} {n : ℕ} (hi : Inv nc ni o)
    (h : o.addContact pose cov num v = .ok (n, o')) : Inv nc ni o' := by
  simp only [addContact, Res.bind_eq_ok] at h
  obtain ⟨_, -, n', -, _, -, c, hc, _, hs, si, h1, st, h2, r, -, x, hx, o1, h3, o2, h4, h5⟩ := h
  cases h5
  refine inv_withQ (inv_withP ?_ h3) h4
  have hc' := rd_ok hc
  have hm := hi.1
  have h1' := (contactsIndex_ok h1).2
  have h2' := (contactsIndexTangent_ok h2).2
  have := inv_setContact hi n c { c with
      isSet := true
      stateIndex := (si + n * 13 : ℕ)
      stateIndexTangent := (st + n * 12 : ℕ)
      absPose := pose
      visco := some (newVisco o v) } hc' (hi.2.conTime c (List.mem_of_getElem? hc')) (fun _ => by
        refine ⟨?_, ?_, rfl⟩
        · simp only [h1', hm.2]
        · simp only [h2', hm.2]) (fun _ => rfl) o.nReal
  exact ⟨this.1, { this.2 with xSize := by have := DVec.setList_size hx; rw [this]; exact hi.2.xSize }⟩

theorem inv_removeContact {n : Int} (hi : Inv nc ni o) (h : o.removeContact n = .ok o') : Inv nc ni o' := by
  simp only [removeContact, Res.bind_eq_ok] at h
  obtain ⟨c, hc, _, -, h⟩ := h
  cases h
  have hc' := rd_ok hc
  split_ifs at hc'
  exact inv_setContact hi n.toNat c { c with isSet := false, withRealSensor := false } hc' (hi.2.conTime c (List.mem_of_getElem? hc')) (fun h => by simp at h) (fun h => by simp at h) _

theorem inv_clearContacts (hi : Inv nc ni o) : Inv nc ni o.clearContacts :=
  ⟨hi.1, { hi.2 with
    conLen := Or.inr rfl
    conIdx := fun i c hc => by simp [clearContacts] at hc
    conSensor := fun c hc => by simp [clearContacts] at hc
    conTime := fun c hc => by simp [clearContacts] at hc }⟩

theorem inv_getMeasurementVector {y : DVec} (hi : Inv nc ni o) (h : o.getMeasurementVector = .ok (y, o')) : Inv nc ni o' := by
  simp only [getMeasurementVector, Res.bind_eq_ok] at h
  obtain ⟨n, -, h⟩ := h
  split_ifs at h
  · simp only [Res.bind_eq_ok] at h
    obtain ⟨_, -, _, -, _, -, _, -, h⟩ := h
    cases h
    exact hi
  · cases h; exact hi

/-! ## The constructor -/

theorem withP_eq {f : DMat → Res DMat} (e : o.withP f = .ok o') : o' = { o with ekf := o'.ekf } := by
  simp only [withP, Res.bind_eq_ok] at e
  obtain ⟨P, -, e1, h1, h2⟩ := e
  cases h2; rfl

theorem construct_pos (h : construct nc ni = .ok o) : 0 < ni := by
  simp only [construct, Res.bind_eq_ok] at h
  obtain ⟨e1, -, e2, -, e3, -, e4, -, o1, h5, -⟩ := h
  simp only [resetStateCovarianceMat, Res.bind_eq_ok] at h5
  obtain ⟨q1, h1, q2, h2, q3, h3, -⟩ := h5
  have e1 : q1.maxIMU = ni := by rw [withP_eq h1]; rfl
  have e2 : q2.maxIMU = ni := by
    refine Res.foldlM_inv (fun q => q.maxIMU = ni) (fun b a b' hb e => ?_) _ _ _ h2 e1
    simp only [resetStateGyroBiasIfTime, Res.bind_eq_ok] at e
    obtain ⟨c, -, e⟩ := e
    split_ifs at e
    · rw [withP_eq e]; exact hb
    · cases e; exact hb
  simp only [resetStateUnmodeledWrenchCovMat, withP, Res.bind_eq_ok, unmodeledWrenchIndexTangent, gyroBiasIndexTangent] at h3
  obtain ⟨_, ⟨_, ⟨_, ⟨_, h3, -⟩, -⟩, -⟩, -⟩ := h3
  simpa [e2] using Res.assert_ok h3

theorem inv_construct (h : construct nc ni = .ok o) : Inv nc ni o := by
  have hpos := construct_pos h
  simp only [construct, Res.bind_eq_ok] at h
  obtain ⟨e1, h1, e2, h2, e3, h3, e4, h4, o1, h5, o2, h6, h7⟩ := h
  refine inv_updateKine (inv_resetProcessCovarianceMat (inv_resetStateCovarianceMat ?_ h5) h6) h7
  simp only [KF.setStateCovariance, KF.setQ, KF.setR, Res.bind_eq_ok] at h2 h3 h4
  obtain ⟨_, hP, h2⟩ := h2
  obtain ⟨_, hQ, h3⟩ := h3
  obtain ⟨_, -, h4⟩ := h4
  cases h4; cases h3; cases h2
  have hs : e1 = ⟨some ((init nc ni).x, 0), (init nc ni).ekf.y, (init nc ni).ekf.u, (init nc ni).ekf.st⟩ := by
    simp only [Obs.setState, Res.bind_eq_ok, Obs.getCurrentTime] at h1
    obtain ⟨_, -, k, hk, h1⟩ := h1
    obtain rfl := Res.ok.inj hk
    rw [if_neg (lt_irrefl _), if_neg (by exact lt_irrefl 0)] at h1
    exact (Res.ok.inj h1).symm
  subst hs
  refine ⟨⟨rfl, rfl⟩, ⟨hpos, by simp [init], by simp [init], ?_, ?_, rfl, le_rfl, Or.inl rfl, ?_, ?_, le_rfl, ?_⟩⟩
  · intro i c hc
    simp only [init, List.getElem?_replicate] at hc
    split_ifs at hc
    cases hc
    intro h; simp [Contact.new] at h
  · intro c hc
    rw [(List.mem_replicate.1 hc).2]
    intro h; simp [Contact.new] at h
  · intro c hc
    rw [(List.mem_replicate.1 hc).2]
    exact le_rfl
  · intro c hc
    rw [(List.mem_replicate.1 hc).2]
    exact le_rfl
  · refine ⟨rfl, rfl, rfl, ⟨_, rfl, rfl⟩, ?_, ?_, ?_, ?_, Or.inl rfl⟩
    · exact Res.assert_ok hP
    · exact Res.assert_ok hQ
    · intro v t hv; simp [init, EKF.mk, KF.mk] at hv
    · intro v t hv; simp [init, EKF.mk, KF.mk] at hv

/-! ## All calls -/

theorem inv_exec (op : Op) (hi : Inv nc ni o) (h : Op.exec o op = .ok o') : Inv nc ni o' := by
  cases op <;> simp only [Op.exec, Res.bind_eq_ok] at h
  case setSamplingTime => cases h; exact hi
  case setMass => cases h; exact hi
  case update => exact inv_update hi h
  case estimateAccelerations => exact inv_estimateAccelerations hi h
  case setStateKinematics => exact inv_setStateKinematics hi h
  case setGyroBias => exact inv_setGyroBias hi h
  case setStateUnmodeledWrench => exact inv_setStateUnmodeledWrench hi h
  case setStateVector => exact inv_setStateVector hi h
  case setAdditionalWrench => cases h; exact hi
  case setWithUnmodeledWrench => cases h; exact hi
  case setWithAccelerationEstimation => cases h; exact hi
  case setWithGyroBias => cases h; exact hi
  case setIMU => obtain ⟨r, h1, h2⟩ := h; cases h2; exact inv_setIMU hi h1
  case setIMUDefaultCovarianceMatrix => cases h; exact hi
  case updateContactWithWrenchSensor => exact inv_updateContactWithWrenchSensor hi h
  case setContactWrenchSensorDefaultCovarianceMatrix => cases h; exact hi
  case updateContactWithNoSensor => exact inv_updateContactWithNoSensor hi h
  case setAbsolutePoseSensor => cases h; exact inv_setAbs (inv_start hi) _ le_rfl
  case setAbsolutePoseSensorDefaultCovarianceMatrix => cases h; exact hi
  case setInertiaMatrix2 => cases h; exact inv_start hi
  case setInertiaMatrix =>
    simp only [setInertiaMatrix, Res.bind_eq_ok] at h
    obtain ⟨_, -, h⟩ := h
    cases h; exact inv_start hi
  case setInertiaVector2 => cases h; exact inv_start hi
  case setInertiaVector => exact inv_setInertiaVector hi h
  case setCenterOfMass3 => cases h; exact inv_start hi
  case setCenterOfMass2 =>
    simp only [setCenterOfMass2, Res.bind_eq_ok] at h
    obtain ⟨_, -, h⟩ := h
    cases h; exact inv_start hi
  case setCenterOfMass => exact inv_setCenterOfMass hi h
  case setAngularMomentum2 => cases h; exact inv_start hi
  case setAngularMomentum =>
    simp only [setAngularMomentum, Res.bind_eq_ok] at h
    obtain ⟨_, -, h⟩ := h
    cases h; exact inv_start hi
  case addContact => obtain ⟨r, h1, h2⟩ := h; cases h2; exact inv_addContact hi h1
  case removeContact => exact inv_removeContact hi h
  case clearContacts => cases h; exact inv_clearContacts hi
  case setStateCovarianceMat => exact inv_withP hi h
  case setKinematicsStateCovariance => exact inv_withP hi h
  case setKinematicsInitCovarianceDefault =>
    unfold setKinematicsInitCovarianceDefault at h
    split_ifs at h
    cases h; exact hi
  case setGyroBiasStateCovariance => exact inv_withP hi h
  case setGyroBiasInitCovarianceDefault => cases h; exact hi
  case setGyroBiasProcessCovariance => exact inv_withQ hi h
  case setUnmodeledWrenchStateCovMat => exact inv_withP hi h
  case setUnmodeledWrenchInitCovMatDefault => cases h; exact hi
  case setUnmodeledWrenchProcessCovMat => exact inv_withQ hi h
  case setContactStateCovMat => exact inv_withP hi h
  case setContactInitCovMatDefault => cases h; exact hi
  case setContactProcessCovMat => exact inv_withQ hi h
  case setProcessNoiseCovarianceMat => exact inv_withQ hi h
  case resetStateCovarianceMat => exact inv_resetStateCovarianceMat hi h
  case resetStateKinematicsCovMat => exact inv_withP hi h
  case resetStateGyroBiasCovMat => exact inv_withP hi h
  case resetStateUnmodeledWrenchCovMat => exact inv_withP hi h
  case resetStateContactsCovMat => exact inv_resetStateContactsCovMat hi h
  case resetStateContactCovMat => exact inv_resetStateContactCovMat hi h
  case resetProcessCovarianceMat => exact inv_resetProcessCovarianceMat hi h
  case resetProcessKinematicsCovMat => exact inv_withQ hi h
  case resetProcessGyroBiasCovMat => exact inv_withQ hi h
  case resetProcessUnmodeledWrenchCovMat => exact inv_withQ hi h
  case resetProcessContactsCovMat => exact inv_resetProcessContactsCovMat hi h
  case resetProcessContactCovMat => exact inv_resetProcessContactCovMat hi h
  case resetSensorsDefaultCovMat => cases h; exact hi
  case resetInputs => cases h; exact inv_resetInputs hi
  case setFiniteDifferenceStep => cases h; exact hi
  case useFiniteDifferencesJacobians => cases h; exact hi
  case getMeasurementVector => obtain ⟨r, h1, h2⟩ := h; cases h2; exact inv_getMeasurementVector hi h1

theorem inv_reachable {l : List Op} (h : Reachable nc ni l o) : Inv nc ni o := by
  obtain ⟨o0, h0, h1⟩ := h
  exact Res.foldlM_inv (Inv nc ni) (fun b a b' hb e => inv_exec a hb e) _ _ _ h1 (inv_construct h0)

end Observer
end StateObs.KO
