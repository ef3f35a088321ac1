import Verif.Offline.AttLoop
/-! # Property C101: the offline estimation of the attitude of an inertial unit -/

namespace StateObs.Offline
open StateObs KF Flex Matrix Imu EKF KFSpec Rot Kine

/-- The filter when the loop starts. -/
theorem att_start (dt : ℝ) (k : Int) (x : Fin 18 → ℝ) (P Q : Matrix (Fin 18) (Fin 18) ℝ) (R : Matrix (Fin 6) (Fin 6) ℝ) (u0 : Fin 6 → ℝ) :
    ∃ f1 f2 f3 f4 f5, Obs.setState (cfg (EKF.setFunctor (EKF.mk 18 18 6 6 6 false true) (imuFunctor dt)))
        (EKF.setFunctor (EKF.mk 18 18 6 6 6 false true) (imuFunctor dt)) ⟨18, x⟩ k = .ok f1 ∧
      setStateCovariance f1 ⟨18, 18, P⟩ = .ok f2 ∧ Obs.setInput (cfg f2) f2 ⟨6, u0⟩ k = .ok f3 ∧ setR f3 ⟨6, 6, R⟩ = .ok f4 ∧
      setQ f4 ⟨18, 18, Q⟩ = .ok f5 ∧ AttLive dt Q R x P k f5 ∧ f5.u = ⟨k, [⟨6, u0⟩]⟩ := by
  obtain ⟨f0, hf0⟩ : ∃ f0 : KFilter Ext, f0 = EKF.setFunctor (EKF.mk 18 18 6 6 6 false true) (imuFunctor dt) := ⟨_, rfl⟩
  have hy : f0.y.v = [] := by rw [hf0]; rfl
  have hu : f0.u.v = [] := by rw [hf0]; rfl
  have hn : f0.st.n = 18 := by rw [hf0]; rfl
  have hnt : f0.st.nt = 18 := by rw [hf0]; rfl
  have hmt : f0.st.mt = 6 := by rw [hf0]; rfl
  have hp : f0.st.p = 6 := by rw [hf0]; rfl
  have hxb : f0.st.xbar = none := by rw [hf0]; rfl
  have hyb : f0.st.ybar = none := by rw [hf0]; rfl
  have hp' : (cfg f0).p > 0 := by show 0 < f0.st.p; omega
  have h1 : (cfg f0).okX ⟨18, x⟩ = true := by show DVec.hasSize ⟨18, x⟩ f0.st.n = true; rw [hn, DVec.hasSize_mk]
  have e1 : Obs.setState (cfg f0) f0 ⟨18, x⟩ k = .ok { f0 with x := some (⟨18, x⟩, k), y := ⟨f0.y.k, []⟩, u := ⟨f0.u.k, []⟩ } := by
    simp [Obs.setState, h1, Obs.getCurrentTime, hp', hy, hu, Obs.dropUpTo]
  rw [← hf0]
  refine ⟨_, { f0 with x := some (⟨18, x⟩, k), y := ⟨f0.y.k, []⟩, u := ⟨f0.u.k, []⟩, st := { f0.st with pr := ⟨18, 18, P⟩ } },
    { f0 with x := some (⟨18, x⟩, k), y := ⟨f0.y.k, []⟩, u := ⟨k, [⟨6, u0⟩]⟩, st := { f0.st with pr := ⟨18, 18, P⟩ } },
    { f0 with x := some (⟨18, x⟩, k), y := ⟨f0.y.k, []⟩, u := ⟨k, [⟨6, u0⟩]⟩, st := { f0.st with pr := ⟨18, 18, P⟩, r := ⟨6, 6, R⟩ } },
    { f0 with x := some (⟨18, x⟩, k), y := ⟨f0.y.k, []⟩, u := ⟨k, [⟨6, u0⟩]⟩, st := { f0.st with pr := ⟨18, 18, P⟩, r := ⟨6, 6, R⟩, q := ⟨18, 18, Q⟩ } },
    e1, ?_, ?_, ?_, ?_, ?_, rfl⟩
  · simp only [setStateCovariance, KData.checkP, hnt, DMat.hasSize_mk, Res.assert_true, Res.ok_bind]
  · have h2 : DVec.hasSize ⟨6, u0⟩ f0.st.p = true := by rw [hp, DVec.hasSize_mk]
    have h3 : 0 < f0.st.p := by omega
    simp [Obs.setInput, cfg, h2, h3, IArr.size, IArr.setValue, IArr.checkIndex, IArr.checkNext]
  · simp only [setR, KData.checkR, hmt, DMat.hasSize_mk, Res.assert_true, Res.ok_bind]
  · simp only [setQ, KData.checkQ, hnt, DMat.hasSize_mk, Res.assert_true, Res.ok_bind]
  · refine ⟨hn, hnt, ?_, hmt, hp, ?_, ?_, ?_, ?_, rfl, rfl, rfl, rfl, rfl, ?_, ?_⟩
    any_goals (rw [hf0]; rfl)
    · intro v t h; simp [hxb] at h
    · intro v t h; simp [hyb] at h

/-- **C101** `imuAttitudeTrajectoryReconstruction` on the measurements of `l` at the times `k`, `k + 1`, …, each with the input of the time before, is a
run of the extended Kalman filter of the motion of the unit with the covariances and the period given: it returns the guess at time `k - 1` followed by the
estimates (behaviour undefined exactly when an orientation to regulate has more than four billion turns). The input at the time of the last
measurement is not used. -/
theorem C101_run (l : List ((Fin 6 → ℝ) × (Fin 6 → ℝ))) (k : Int) (us : IArr DVec) (h0 : ∃ w, us.get (k - 1) = .ok ⟨6, w⟩)
    (hu : ∀ j (h : j < l.length), us.get (k - 1 + j) = .ok ⟨6, l[j].1⟩) (x : Fin 18 → ℝ) (P Q : Matrix (Fin 18) (Fin 18) ℝ) (R : Matrix (Fin 6) (Fin 6) ℝ)
    (hP : P.PosSemidef) (hQ : Q.PosSemidef) (hR : R.PosDef) (dt : ℝ) :
    ∃ r, AttRun dt Q R x P l r ∧ imuAttitudeTrajectoryReconstruction ⟨k, l.map fun e => ⟨6, e.2⟩⟩ us ⟨18, x⟩ ⟨18, 18, P⟩ ⟨18, 18, Q⟩ ⟨6, 6, R⟩ dt =
      (r >>= fun q => .ok ⟨k - 1, ⟨18, x⟩ :: q.map fun v => ⟨18, v⟩⟩) := by
  obtain ⟨u0, h0⟩ := h0
  obtain ⟨f1, f2, f3, f4, f5, e1, e2, e3, e4, e5, hl, hu5⟩ := att_start dt (k - 1) x P Q R u0
  have ex : (IArr.empty : IArr DVec).setValue ⟨18, x⟩ (k - 1) = .ok ⟨k - 1, [⟨18, x⟩]⟩ := by
    simp [IArr.empty, IArr.setValue, IArr.checkIndex, IArr.checkNext]
  obtain ⟨r, hr, er⟩ := att_loop ⟨k, l.map fun e => ⟨6, e.2⟩⟩ us dt Q R hQ hR l (k - 1) f5 ⟨k - 1, [⟨18, x⟩]⟩ x P hl hP
    (fun e he => by
      cases l with
      | nil => simp at he
      | cons a l =>
        simp only [List.head?_cons, Option.mem_def, Option.some.injEq] at he
        subst he
        have := hu 0 (by simp)
        simp only [Nat.cast_zero, add_zero, List.getElem_cons_zero, h0] at this
        rw [hu5, Res.ok.inj this])
    (by simp [IArr.getNextIndex])
    (fun j h => by
      refine ⟨?_, hu j h⟩
      rw [sub_add_cancel]
      have hj : (j : Int) < l.length := by exact_mod_cast h
      have h0 : 0 < l.length := by omega
      simp [IArr.get, IArr.checkIndex, h, hj, h0])
    (Or.inr (by simp [IArr.getNextIndex]))
  refine ⟨r, hr, ?_⟩
  have hd : (fun _ : Fin 18 => (1 * 1e-8 : ℝ)) = fun _ => 1e-8 := by simp
  rw [sub_add_cancel] at er
  simp only [imuAttitudeTrajectoryReconstruction, IArr.getFirstIndex, e1, e2, h0, e3, e4, e5, ex, Res.ok_bind, IArr.size, List.length_map, hd, er]
  cases r with
  | ok q => cases q <;> simp [app]
  | assertFail => rfl
  | ub => rfl
  | exn => rfl

theorem zeroInputs_app (p : ℕ) : ∀ (n : ℕ) (k : Int) (u : IArr DVec), Ready u k → zeroInputs p n k u = .ok (app k (List.replicate n (DVec.zero p)) u)
  | 0, k, u, _ => by simp [zeroInputs, app]
  | n + 1, k, u, h => by
    rw [zeroInputs, setValue_ready h, Res.ok_bind, zeroInputs_app p n (k + 1) _ (ready_app h _), app_app]
    rfl

/-- **C101** The overload without inputs is the same with null accelerations. -/
theorem C101_noInput (l : List (Fin 6 → ℝ)) (k : Int) (x : Fin 18 → ℝ) (P Q : Matrix (Fin 18) (Fin 18) ℝ) (R : Matrix (Fin 6) (Fin 6) ℝ)
    (hP : P.PosSemidef) (hQ : Q.PosSemidef) (hR : R.PosDef) (dt : ℝ) :
    ∃ r, AttRun dt Q R x P (l.map fun y => (0, y)) r ∧
      imuAttitudeTrajectoryReconstruction0 ⟨k, l.map fun y => ⟨6, y⟩⟩ ⟨18, x⟩ ⟨18, 18, P⟩ ⟨18, 18, Q⟩ ⟨6, 6, R⟩ dt =
        (r >>= fun q => .ok ⟨k - 1, ⟨18, x⟩ :: q.map fun v => ⟨18, v⟩⟩) := by
  have hz := zeroInputs_app 6 (l.length + 1) (k - 1) IArr.empty (Or.inl rfl)
  have hh : Holds _ _ _ := holds_app (a := IArr.empty) (i := k - 1) (Or.inl rfl) (List.replicate (l.length + 1) (DVec.zero 6))
  have hg : ∀ j : ℕ, j < l.length + 1 → (app (k - 1) (List.replicate (l.length + 1) (DVec.zero 6)) IArr.empty).get (k - 1 + j) = .ok ⟨6, 0⟩ := by
    intro j hj
    have := hh j (by simpa using hj)
    simp only [List.getElem_replicate] at this
    exact this
  obtain ⟨r, hr, h⟩ := C101_run (l.map fun y => ((0 : Fin 6 → ℝ), y)) k _ ⟨0, by simpa using hg 0 (by omega)⟩ (fun j hj => by
    simp only [List.getElem_map]
    exact hg j (by simp at hj; omega)) x P Q R hP hQ hR dt
  refine ⟨r, hr, ?_⟩
  rw [← h]
  simp only [imuAttitudeTrajectoryReconstruction0, IArr.size, IArr.getFirstIndex, List.length_map, hz, Res.ok_bind, List.map_map]
  rfl

/-- One measurement of the gravity by a unit at rest. -/
theorem rest_run {dt : ℝ} {P Q R r} (h : AttRun dt Q R 0 P [(0, ![0, 0, 9.8, 0, 0, 0])] r) : ∃ v : Fin 18 → ℝ, r = .ok [v] ∧
    NormedSpace.exp (hat (seg 3 v 3)) = 1 ∧ ∀ i : Fin 18, i.val < 3 ∨ 6 ≤ i.val → v i = 0 := by
  have key : ∀ (F : (Fin 18 → ℝ) → Fin 18 → ℝ) (H : (Fin 18 → ℝ) → Fin 6 → ℝ), (∀ x, ImuNext dt x 0 (F x)) → (∀ x, ImuReading x (H x)) →
      (![0, 0, 9.8, 0, 0, 0] : Fin 6 → ℝ) - H (F 0) = 0 ∧ NormedSpace.exp (hat (seg 3 (F 0) 3)) = 1 ∧
        ∀ i : Fin 18, i.val < 3 ∨ 6 ≤ i.val → F 0 i = 0 := by
    intro F H hF hH
    have t0 : turn 0 = 1 := by rw [turn, if_pos (by simp [nrm]; norm_num)]
    have s0 : ∀ a, seg 3 (0 : Fin 18 → ℝ) a = 0 := fun a => by funext i; simp [seg]
    have s6 : ∀ a, seg 3 (0 : Fin 6 → ℝ) a = 0 := fun a => by funext i; simp [seg]
    have h := hF 0
    have ho := h.ori
    rw [s0, s0, s0, smul_zero, smul_zero, add_zero, t0, mul_one] at ho
    have ht : turn (seg 3 (F 0) 3) = 1 := by
      rw [turn, ho]; split_ifs <;> rfl
    have e0 := h.pos
    have e6 := h.linVel
    have e9 := h.angVel
    have e12 := h.linAcc
    have e15 := h.angAcc
    simp only [s0, s6, smul_zero, add_zero] at e0 e6 e9 e12 e15
    have a := (hH (F 0)).acc
    have g := (hH (F 0)).gyro
    rw [ht, one_mulVec, e12, zero_add] at a
    rw [ht, one_mulVec, e9] at g
    refine ⟨?_, ho, ?_⟩
    · have p0 := congrFun a 0
      have p1 := congrFun a 1
      have p2 := congrFun a 2
      have p3 := congrFun g 0
      have p4 := congrFun g 1
      have p5 := congrFun g 2
      simp [seg] at p0 p1 p2 p3 p4 p5
      funext i
      fin_cases i <;> simp [*]
    · intro i hi
      have q := fun j => congrFun e0 j
      have q6 := fun j => congrFun e6 j
      have q9 := fun j => congrFun e9 j
      have q12 := fun j => congrFun e12 j
      have q15 := fun j => congrFun e15 j
      simp only [Fin.forall_fin_succ, seg, Pi.zero_apply] at q q6 q9 q12 q15
      simp at q q6 q9 q12 q15
      fin_cases i <;> first | (exfalso; simp at hi; done) | simp [*]
  cases h with
  | step _ _ _ _ _ r F H A C Pp d v hF hH hA hC hP hd hv ho hn h =>
    cases h
    obtain ⟨k1, k2, k3⟩ := key F H hF hH
    rw [k1, mulVec_zero] at hd
    subst hd
    rw [add_zero, k2] at ho
    refine ⟨v, rfl, ho, fun i hi => ?_⟩
    rw [hv i hi, k3 i hi]
    simp
  | tooLong _ _ _ _ _ F H A C Pp d hF hH hA hC hP hd ho =>
    obtain ⟨k1, k2, k3⟩ := key F H hF hH
    rw [k1, mulVec_zero] at hd
    rw [hd, add_zero] at ho
    have := (hF 0).short
    nlinarith [Real.pi_pos]

/-- Non-vacuity of C101: a unit at rest, one measurement at time 5. -/
example : ∃ v : Fin 18 → ℝ, imuAttitudeTrajectoryReconstruction ⟨5, [⟨6, ![0, 0, 9.8, 0, 0, 0]⟩]⟩ ⟨4, [⟨6, 0⟩]⟩ ⟨18, 0⟩ ⟨18, 18, 1⟩ ⟨18, 18, 1⟩ ⟨6, 6, 1⟩ 0.01 =
    .ok ⟨4, [⟨18, 0⟩, ⟨18, v⟩]⟩ ∧ NormedSpace.exp (hat (seg 3 v 3)) = 1 ∧ ∀ i : Fin 18, i.val < 3 ∨ 6 ≤ i.val → v i = 0 := by
  obtain ⟨r, h1, h2⟩ := C101_run [(0, ![0, 0, 9.8, 0, 0, 0])] 5 ⟨4, [⟨6, 0⟩]⟩ ⟨0, rfl⟩ (by
    intro j h
    have : j = 0 := by simpa using h
    subst this
    rfl) 0 1 1 1 PosSemidef.one PosSemidef.one PosDef.one 0.01
  obtain ⟨v, rfl, h3⟩ := rest_run h1
  exact ⟨v, h2, h3⟩

end StateObs.Offline
