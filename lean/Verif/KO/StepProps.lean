import Verif.KO.MeasProps
/-!
# One estimation of the kinetics observer is one step of an extended Kalman filter (C85)
-/

namespace StateObs.KO
open StateObs Matrix Rot Kine KF Observer KFSpec

variable {nc ni : ℕ} {o o' : Observer}

theorem afterFilter_x {e : KFilter EKF.Ext} {x : DVec} {t : Int} (hx : e.x = some (x, t)) (h : o.afterFilter e = .ok o') : o'.x = x := by
  simp only [afterFilter, hx, Res.bind_eq_ok] at h
  obtain ⟨x', hx', o2, h4, h5⟩ := h
  have hx' : x = x' := by simpa [val] using hx'
  subst hx'
  have h2 : o2.x = x := by
    simp only [updateKine, Res.bind_eq_ok] at h4
    obtain ⟨s, -, k, -, h2⟩ := h4
    cases h2; rfl
  split_ifs at h5
  · simp only [estimateAccelerations, Res.bind_eq_ok] at h5
    obtain ⟨_, -, _, -, h⟩ := h5
    cases h
    exact h2
  · cases h5; exact h2

/-- Without an absolute pose, the measurement difference is the difference of the vectors. -/
theorem measurementDifference_sub {m : ℕ} {y y' : Fin m → ℝ} {d : DVec} (h1 : 6 * o.nIMU + 6 * o.nReal = m) (h2 : o.measTangentSize = m) (h3 : o.abs.time ≠ o.kData)
    (h : o.measurementDifference ⟨m, y⟩ ⟨m, y'⟩ = .ok d) : d = ⟨m, y - y'⟩ := by
  have e1 : o.sensorSize = .ok m := by rw [sensorSize, h1, if_neg (by omega)]; simp
  rw [measurementDifference, e1, Res.ok_bind, h2, diffSeg] at h
  simp only [Res.bind_eq_ok, opt, h3, decide_false, Bool.false_eq_true, if_false] at h
  obtain ⟨b, ⟨s1, q1, s2, q2, q3⟩, b', q4, h⟩ := h
  cases q4
  obtain ⟨_, r1⟩ := DVec.seg_ok q1
  obtain ⟨_, r2⟩ := DVec.seg_ok q2
  have hb := (Buf.Holds.new m).setSeg q3
  obtain ⟨-, hs, hd⟩ := hb.1.done h
  have hs : d.size = m := hs.trans hb.2
  obtain ⟨n, v⟩ := d
  simp only at hs
  subst hs
  rw [List.nil_append] at hd
  have := List.ofFn_injective hd
  simp only at this
  subst this
  congr 1
  funext i
  simp [r1, r2]

/-- **C85** When `update()` returns with new data, it has made exactly one step of an extended Kalman filter. Let `x` and `P` be the estimate and the covariance that the
filter had, `Q` the covariance of the process; `y` the signals of the iteration, by number of IMU and then by number of contact, `R` the block diagonal matrix of their
covariances in the same order, `F` and `H` the dynamics of the observer and the prediction of its sensors (the observer `oy` is `o`, with the places of the sensors in the
measurement that the first half of `update()` gives them; see C106 and C108 for `F` and `H`), `A` and `C` the finite differences of `F` at `x` and of `H` at `F x`. Then the new covariance is the posterior one, the new estimate is `F x` moved by
the gain times `y - H (F x)`, and it is the state vector that the observer returns. -/
theorem C85_step {l : List Op} (hg : ∀ op ∈ l, op.GoodCov) (h : Reachable nc ni l o) (hk : o.kEst ≠ o.kData) (hu : o.update = .ok o') :
    ∃ (oy : Observer) (x xb xn : DVec) (m : ℕ) (y yb : Fin m → ℝ) (P Q A : Matrix (Fin (18 + ni * 3 + 12 * nc)) (Fin (18 + ni * 3 + 12 * nc)) ℝ)
      (C : Matrix (Fin m) (Fin (18 + ni * 3 + 12 * nc)) ℝ) (R : Matrix (Fin m) (Fin m) ℝ),
      (∃ imus contacts abs a b, oy = { o with imus := imus, contacts := contacts, abs := abs, measSize := a, measTangentSize := b } ∧
        List.Forall₂ (fun m m' => ∃ j, m' = { m with measIndex := j }) o.imus imus ∧
        List.Forall₂ (fun c c' => ∃ j, c' = { c with measIndex := j }) o.contacts contacts) ∧
      (∃ z cov, o.buildMeasurement = .ok (oy, z, cov)) ∧ o.ekf.x = some (x, o.kEst) ∧ o.getStateCovarianceMat = ⟨_, _, P⟩ ∧ o.ekf.st.q = ⟨_, _, Q⟩ ∧
      List.ofFn y = (o.imus.flatMap fun m => if m.time = o.kData then (m.signal.map List.ofFn).getD [] else []) ++
        (o.contacts.flatMap fun c => if c.withRealSensor then (c.wrench.map List.ofFn).getD [] else []) ∧
      (∀ i j, R i j = blockDiag (o.imus.flatMap (IMU.blocks o.kData) ++ o.contacts.flatMap Contact.blocks) i j) ∧
      oy.stateDynamics x = .ok xb ∧ oy.measureDynamics xb o.kData = .ok ⟨m, yb⟩ ∧
      EKF.FDJacobian oy.stateSum oy.stateDynamics oy.stateDifference o.dx x xb A ∧
      EKF.FDJacobian oy.stateSum (fun z => oy.measureDynamics z o.kData) (fun _ => DVec.sub) o.dx xb ⟨m, yb⟩ C ∧
      (innovCov C R (predCov A Q P)).PosDef ∧
      oy.stateSum xb ⟨_, gain C R (predCov A Q P) *ᵥ (y - yb)⟩ = .ok xn ∧
      o'.ekf.x = some (xn, o.kEst + 1) ∧ o'.getCurrentStateVector = xn ∧ o'.getStateVectorTimeIndex = .ok (o.kEst + 1) ∧
      o'.getStateCovarianceMat = ⟨_, _, posterior C R (predCov A Q P)⟩ ∧ o'.ekf.st.q = ⟨_, _, Q⟩ := by
  have hi := inv_reachable h
  have hc := covInv_reachable hg h
  have hp : o.abs.time ≠ o.kData := fun hp => Posed.update hi ⟨hp, hk⟩ o' hu
  rw [Observer.update, if_pos hk] at hu
  simp only [Res.bind_eq_ok] at hu
  obtain ⟨⟨o1, y, cov⟩, e1, e, e2, e3⟩ := hu
  obtain ⟨hi1, hk1, hk2⟩ := inv_buildMeasurement hi e1
  have hR := measCov_psd hc e1
  obtain ⟨s0, s1, s2, s3, s4, s5⟩ := buildMeasurement_holds e1
  obtain ⟨imus, contacts, abs, a, b, rfl, f1, f2, f3⟩ := buildMeasurement_ok e1
  have hkk : o.kData = o.kEst + 1 := by have := hi.2.time; omega
  obtain ⟨v, xb, yb, xhat, inn, A, C, Q, P0, R, P, K, st, hx, hxb, hyb, hm, hy, hcv, hQ, hP0, hA, hC, hM, har, hcor, ex, epr, eq, -⟩ :=
    runFilter_ok (by exact hkk) (by exact hi1.2.ekf) e2
  simp only at hx hm hy hcv hQ hP0 ex
  have pQ : Q.PosSemidef := isPSD_mk.1 (hQ ▸ hc.q)
  have pP : P0.PosSemidef := isPSD_mk.1 (hP0 ▸ hc.pr)
  have pR : R.PosSemidef := isPSD_mk.1 (hcv ▸ hR)
  obtain ⟨hS, rfl, rfl, ino, q1, q2, q3⟩ := correct_ok hM pQ pP pR hcor
  rw [har] at q1 q3
  obtain ⟨my, y⟩ := y
  simp only at hy
  subst hy
  have hyb' : yb.size = my := by
    obtain ⟨_, _, f', d, -, -, -, hd, -⟩ := hC ⟨0, by omega⟩
    simp only [DVec.sub] at hd
    split_ifs at hd with hs
    have := congrArg DVec.size (Res.ok.inj hd)
    simp only at this
    omega
  obtain ⟨nb, yb⟩ := yb
  simp only at hyb'
  subst hyb'
  have ei := measurementDifference_sub (o := { o with imus := imus, contacts := contacts, abs := abs, measSize := nb, measTangentSize := b }) (by
    simp only [if_neg hp] at s4
    simp only
    omega) hm.symm (by simp only [f3]; exact hp) q1
  subst ei
  rw [DMat.mulVec, dif_pos rfl] at q2
  have q2 := (Res.ok.inj q2).symm
  subst q2
  obtain ⟨s1a, s1b⟩ := s1
  refine ⟨_, v, xb, xhat, nb, y, yb, P0, Q, A, C, R, ⟨imus, contacts, abs, nb, b, rfl, f1, f2⟩, ⟨_, _, e1⟩, hx, hP0, hQ, ?_, ?_, hxb, hyb, hA, hC, hS, q3, ?_, ?_, ?_, ?_, ?_⟩
  · rw [s0, poseSignals, if_neg hp, List.append_nil]
    rfl
  · rw [hcv] at s1b
    simp only at hm s1b
    subst hm
    have := DMat.mk_eq.1 s1b
    subst this
    intro i j
    rw [poseBlocks, if_neg hp, List.append_nil]
  · rw [afterFilter_ekf e3, ex, hkk]
  · exact afterFilter_x ex e3
  · rw [getStateVectorTimeIndex, afterFilter_ekf e3, Obs.getCurrentTime, ex, hkk]
  · rw [getStateCovarianceMat, afterFilter_ekf e3, epr]
  · rw [afterFilter_ekf e3, eq]
    exact hQ

/-! ## A case -/

/-- The first estimation of the example of C84. -/
theorem C85_example (hnc : 0 < nc) (hni : 0 < ni) : ∃ l o o', (∀ op ∈ l, Op.GoodCov op) ∧ Reachable nc ni l o ∧ o.kEst ≠ o.kData ∧ o.update = .ok o' := by
  obtain ⟨o, h⟩ := (C53_constructible nc ni).2 hni
  obtain ⟨c, hr, -⟩ := example_between (nc := nc) hnc hni 1
  obtain ⟨o3, e1, -⟩ := (Sim.new h).run hr
  have e1 : Op.run o ((exampleStart nc ni ++ [.setIMU ![0, 0, 9.8] 0 none atRest 0]) ++ [.updateContactWithNoSensor atRest 0, .update]) = .ok o3 := by
    simpa [exampleIteration] using e1
  obtain ⟨o1, e1, e2⟩ := run_append.1 e1
  obtain ⟨o2, e2, e3⟩ := run_cons.1 e2
  obtain ⟨o4, e3, e4⟩ := run_cons.1 e3
  have hi := inv_run _ o (inv_construct h) o1 e1
  have hk := (clock_exec hi _ e2 (by simp)).2.1 trivial
  have hE := (clock_exec hi _ e2 (by simp)).1
  refine ⟨(exampleStart nc ni ++ [.setIMU ![0, 0, 9.8] 0 none atRest 0]) ++ [.updateContactWithNoSensor atRest 0], o2, o4, ?_, ⟨o, h, run_append.2 ⟨o1, e1, run_cons.2 ⟨o2, e2, rfl⟩⟩⟩,
    by omega, e3⟩
  simp [exampleStart, Op.GoodCov]

end StateObs.KO
