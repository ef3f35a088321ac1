import Verif.KO.CovResetProps
/-!
# The constructor returns exactly if there is room for an IMU; what the new observer contains
-/

namespace StateObs.KO
open StateObs Matrix Rot Kine KF

variable {nc ni : ℕ} {o o' : Observer}

/-- The observer before the covariances are written, cpp 89-169. -/
noncomputable def base (nc ni : ℕ) : Observer :=
  { Observer.init nc ni with
    ekf := { (Observer.init nc ni).ekf with
      x := some ((Observer.init nc ni).x, 0)
      st := { (Observer.init nc ni).ekf.st with
        pr := DMat.zero (18 + ni * 3 + 12 * nc) (18 + ni * 3 + 12 * nc)
        q := DMat.zero (18 + ni * 3 + 12 * nc) (18 + ni * 3 + 12 * nc)
        r := DMat.zero 0 0 } } }

theorem construct_eq (nc ni : ℕ) : Observer.construct nc ni = (base nc ni).resetStateCovarianceMat >>= fun o => o.resetProcessCovarianceMat >>= fun o => o.updateKine := by
  have h1 : Obs.setState (KF.cfg (Observer.init nc ni).ekf) (Observer.init nc ni).ekf (Observer.init nc ni).x (Observer.init nc ni).kEst =
      .ok { (Observer.init nc ni).ekf with x := some ((Observer.init nc ni).x, 0) } := by
    simp [Obs.setState, Obs.getCurrentTime, Observer.init, EKF.mk, KF.mk, KF.cfg, DVec.hasSize, DVec.zero]
    rfl
  simp only [Observer.construct, h1, Res.ok_bind]
  have hP : ∀ M : Matrix (Fin (18 + ni * 3 + 12 * nc)) (Fin (18 + ni * 3 + 12 * nc)) ℝ, (⟨_, _, M⟩ : DMat).hasSize (18 + ni * 3 + 12 * nc) (18 + ni * 3 + 12 * nc) = true := by
    intro M; simp [DMat.hasSize]
  simp only [KF.setStateCovariance, KF.setQ, KF.setR, KData.checkP, KData.checkQ, KData.checkR, Observer.init, EKF.mk, KF.mk, Observer.tangentSize, DMat.zero, hP,
    DMat.hasSize, and_self, decide_true, Bool.and_self, Res.assert_true, Res.ok_bind]
  rfl

theorem inv_base (h : 0 < ni) : Inv nc ni (base nc ni) := by
  refine ⟨⟨rfl, rfl⟩, ⟨h, by simp [base, Observer.init], by simp [base, Observer.init], ?_, ?_, rfl, le_rfl, Or.inl rfl, ?_, ?_, le_rfl, ?_⟩⟩
  · intro i c hc
    simp only [base, Observer.init, List.getElem?_replicate] at hc
    split_ifs at hc
    cases hc
    intro h; simp [Contact.new] at h
  · intro c hc
    rw [(List.mem_replicate.1 hc).2]
    intro h; simp [Contact.new] at h
  · intro c hc
    rw [(List.mem_replicate.1 hc).2]
    exact le_rfl
  · intro c hc
    rw [(List.mem_replicate.1 hc).2]
    exact le_rfl
  · refine ⟨rfl, rfl, rfl, ⟨_, rfl, rfl⟩, ?_, ?_, ?_, ?_, Or.inl rfl⟩
    · simp [base, DMat.hasSize, DMat.zero]
    · simp [base, DMat.hasSize, DMat.zero]
    · intro v t hv; simp [base, Observer.init, EKF.mk, KF.mk] at hv
    · intro v t hv; simp [base, Observer.init, EKF.mk, KF.mk] at hv

theorem updateKine_ok (hi : Inv nc ni o) : ∃ k, o.updateKine = .ok { o with stateKin := k } := by
  have hx : Observer.kineIndex + 13 ≤ o.x.size := by rw [hi.2.xSize]; simp [Observer.kineIndex]; omega
  simp only [Observer.updateKine, DVec.seg, hx, dif_pos, Res.ok_bind, Kin.fromVector, flagsStateKine, Kin.loadItem, Kin.loadOri, List.length_ofFn]
  exact ⟨_, rfl⟩

/-- The new observer: the covariances of the kinematics, of all the gyrometer biases and of the unmodeled wrench have their initial values, everything else is
zero. -/
theorem construct_spec (h : 0 < ni) : ∃ o o1 o2 : Observer, ∃ k, Observer.construct nc ni = .ok o ∧ o = { o2 with stateKin := k } ∧
    StateCov (base nc ni) o1 ([⟨0, 12, (base nc ni).kineInit⟩] ++ gyroBlocks (base nc ni) ni (base nc ni).gyroBiasInit (fun m => decide (m.time = 0)) ++
      [⟨12 + 3 * ni, 6, (base nc ni).unmodeledInit⟩] ++ contactBlocks (base nc ni) ni (base nc ni).contactInit) ∧
    ProcessCov o1 o2 ([⟨0, 12, o1.kineProc⟩] ++ gyroBlocks o1 ni o1.gyroBiasProc (fun _ => true) ++
      [⟨12 + 3 * ni, 6, o1.unmodeledProc⟩] ++ contactBlocks o1 ni o1.contactProc) := by
  have hi := inv_base (nc := nc) h
  obtain ⟨o1, h1, c1⟩ := resetState_all hi
  have i1 := c1.inv hi
  obtain ⟨o2, h2, c2⟩ := resetProcess_all i1
  have i2 := c2.inv i1
  obtain ⟨k, h3⟩ := updateKine_ok i2
  exact ⟨_, o1, o2, k, by rw [construct_eq, h1, Res.ok_bind, h2, Res.ok_bind, h3], rfl, c1, c2⟩

/-- **C53**: an observer can be constructed for every number of contacts and every positive number of IMUs. -/
theorem C53_constructible (nc ni : ℕ) : (∃ o, Observer.construct nc ni = .ok o) ↔ 0 < ni := by
  constructor
  · rintro ⟨o, h⟩; exact Observer.construct_pos h
  · intro h
    obtain ⟨o, -, -, -, h, -⟩ := construct_spec (nc := nc) h
    exact ⟨o, h⟩

/-- The new observer is reachable. -/
theorem reachable_construct (h : Observer.construct nc ni = .ok o) : Reachable nc ni [] o := ⟨o, h, rfl⟩

end StateObs.KO
