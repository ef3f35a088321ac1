import Verif.Offline.MltpLoop
import Verif.Offline.AttProps
/-! # Property C102: the offline estimation of the attitude with a quaternion -/

namespace StateObs.Offline
open StateObs KF Flex Matrix Imu EKF KFSpec Rot Kine Mltp

/-- The filter when the loop starts. -/
theorem mltp_start (dt : ℝ) (k : Int) (x : Fin 19 → ℝ) (P Q : Matrix (Fin 18) (Fin 18) ℝ) (R : Matrix (Fin 6) (Fin 6) ℝ) (u0 : Fin 6 → ℝ) :
    ∃ f1 f2 f3 f4 f5, Obs.setState (cfg (setStateArithmetics (EKF.setFunctor (EKF.mk 19 18 6 6 6 false true) (mltpFunctor dt)) mltpArith))
        (setStateArithmetics (EKF.setFunctor (EKF.mk 19 18 6 6 6 false true) (mltpFunctor dt)) mltpArith) ⟨19, x⟩ k = .ok f1 ∧
      setStateCovariance f1 ⟨18, 18, P⟩ = .ok f2 ∧ Obs.setInput (cfg f2) f2 ⟨6, u0⟩ k = .ok f3 ∧ setR f3 ⟨6, 6, R⟩ = .ok f4 ∧
      setQ f4 ⟨18, 18, Q⟩ = .ok f5 ∧ MltpLive dt Q R x P k f5 ∧ f5.u = ⟨k, [⟨6, u0⟩]⟩ := by
  obtain ⟨f0, hf0⟩ : ∃ f0 : KFilter Ext, f0 = setStateArithmetics (EKF.setFunctor (EKF.mk 19 18 6 6 6 false true) (mltpFunctor dt)) mltpArith := ⟨_, rfl⟩
  have hy : f0.y.v = [] := by rw [hf0]; rfl
  have hu : f0.u.v = [] := by rw [hf0]; rfl
  have hn : f0.st.n = 19 := by rw [hf0]; rfl
  have hnt : f0.st.nt = 18 := by rw [hf0]; rfl
  have hmt : f0.st.mt = 6 := by rw [hf0]; rfl
  have hp : f0.st.p = 6 := by rw [hf0]; rfl
  have hxb : f0.st.xbar = none := by rw [hf0]; rfl
  have hyb : f0.st.ybar = none := by rw [hf0]; rfl
  have hp' : (cfg f0).p > 0 := by show 0 < f0.st.p; omega
  have h1 : (cfg f0).okX ⟨19, x⟩ = true := by show DVec.hasSize ⟨19, x⟩ f0.st.n = true; rw [hn, DVec.hasSize_mk]
  have e1 : Obs.setState (cfg f0) f0 ⟨19, x⟩ k = .ok { f0 with x := some (⟨19, x⟩, k), y := ⟨f0.y.k, []⟩, u := ⟨f0.u.k, []⟩ } := by
    simp [Obs.setState, h1, Obs.getCurrentTime, hp', hy, hu, Obs.dropUpTo]
  rw [← hf0]
  refine ⟨_, { f0 with x := some (⟨19, x⟩, k), y := ⟨f0.y.k, []⟩, u := ⟨f0.u.k, []⟩, st := { f0.st with pr := ⟨18, 18, P⟩ } },
    { f0 with x := some (⟨19, x⟩, k), y := ⟨f0.y.k, []⟩, u := ⟨k, [⟨6, u0⟩]⟩, st := { f0.st with pr := ⟨18, 18, P⟩ } },
    { f0 with x := some (⟨19, x⟩, k), y := ⟨f0.y.k, []⟩, u := ⟨k, [⟨6, u0⟩]⟩, st := { f0.st with pr := ⟨18, 18, P⟩, r := ⟨6, 6, R⟩ } },
    { f0 with x := some (⟨19, x⟩, k), y := ⟨f0.y.k, []⟩, u := ⟨k, [⟨6, u0⟩]⟩, st := { f0.st with pr := ⟨18, 18, P⟩, r := ⟨6, 6, R⟩, q := ⟨18, 18, Q⟩ } },
    e1, ?_, ?_, ?_, ?_, ?_, rfl⟩
  · simp only [setStateCovariance, KData.checkP, hnt, DMat.hasSize_mk, Res.assert_true, Res.ok_bind]
  · have h2 : DVec.hasSize ⟨6, u0⟩ f0.st.p = true := by rw [hp, DVec.hasSize_mk]
    have h3 : 0 < f0.st.p := by omega
    simp [Obs.setInput, cfg, h2, h3, IArr.size, IArr.setValue, IArr.checkIndex, IArr.checkNext]
  · simp only [setR, KData.checkR, hmt, DMat.hasSize_mk, Res.assert_true, Res.ok_bind]
  · simp only [setQ, KData.checkQ, hnt, DMat.hasSize_mk, Res.assert_true, Res.ok_bind]
  · refine ⟨hn, hnt, ?_, hmt, hp, ?_, ?_, ?_, ?_, rfl, rfl, rfl, rfl, rfl, ?_, ?_⟩
    any_goals (rw [hf0]; rfl)
    · intro v t h; simp [hxb] at h
    · intro v t h; simp [hyb] at h

/-- **C102** `imuMultiplicativeAttitudeReconstruction` on the measurements of `l` at the times `k`, `k + 1`, …, each with the input of the time before,
from a guess with a unit quaternion, ends and is a run of the multiplicative extended Kalman filter of the motion of the unit with the covariances
and the period given: it returns the guess at time `k - 1` followed by the estimates. -/
theorem C102_run (l : List ((Fin 6 → ℝ) × (Fin 6 → ℝ))) (k : Int) (us : IArr DVec) (h0 : ∃ w, us.get (k - 1) = .ok ⟨6, w⟩)
    (hu : ∀ j (h : j < l.length), us.get (k - 1 + j) = .ok ⟨6, l[j].1⟩) (x : Fin 19 → ℝ) (hx : Unit4 x) (P Q : Matrix (Fin 18) (Fin 18) ℝ)
    (R : Matrix (Fin 6) (Fin 6) ℝ) (hP : P.PosSemidef) (hQ : Q.PosSemidef) (hR : R.PosDef) (dt : ℝ) :
    ∃ r, MltpRun dt Q R x P l r ∧
      imuMultiplicativeAttitudeReconstruction ⟨k, l.map fun e => ⟨6, e.2⟩⟩ us ⟨19, x⟩ ⟨18, 18, P⟩ ⟨18, 18, Q⟩ ⟨6, 6, R⟩ dt =
        .ok ⟨k - 1, ⟨19, x⟩ :: r.map fun v => ⟨19, v⟩⟩ := by
  obtain ⟨u0, h0⟩ := h0
  obtain ⟨f1, f2, f3, f4, f5, e1, e2, e3, e4, e5, hl, hu5⟩ := mltp_start dt (k - 1) x P Q R u0
  have ex : (IArr.empty : IArr DVec).setValue ⟨19, x⟩ (k - 1) = .ok ⟨k - 1, [⟨19, x⟩]⟩ := by
    simp [IArr.empty, IArr.setValue, IArr.checkIndex, IArr.checkNext]
  obtain ⟨r, hr, er⟩ := mltp_loop ⟨k, l.map fun e => ⟨6, e.2⟩⟩ us dt Q R hQ hR l (k - 1) f5 { (Mltp.ctor : Mltp.Sys Unit) with dt := dt }
    ⟨k - 1, [⟨19, x⟩]⟩ x P hl (good_dt dt) rfl hx hP
    (fun e he => by
      cases l with
      | nil => simp at he
      | cons a l =>
        simp only [List.head?_cons, Option.mem_def, Option.some.injEq] at he
        subst he
        have := hu 0 (by simp)
        simp only [Nat.cast_zero, add_zero, List.getElem_cons_zero, h0] at this
        rw [hu5, Res.ok.inj this])
    (by simp [IArr.getNextIndex])
    (fun j h => by
      refine ⟨?_, hu j h⟩
      rw [sub_add_cancel]
      have hj : (j : Int) < l.length := by exact_mod_cast h
      have h0 : 0 < l.length := by omega
      simp [IArr.get, IArr.checkIndex, h, hj, h0])
    (Or.inr (by simp [IArr.getNextIndex]))
  refine ⟨r, hr, ?_⟩
  rw [sub_add_cancel] at er
  simp only [imuMultiplicativeAttitudeReconstruction, IArr.getFirstIndex, e1, e2, h0, e3, e4, e5, ex, Res.ok_bind, IArr.size, List.length_map, er]
  cases r <;> simp [app]

/-- **C102** The overload without inputs is the same with null accelerations. -/
theorem C102_noInput (l : List (Fin 6 → ℝ)) (k : Int) (x : Fin 19 → ℝ) (hx : Unit4 x) (P Q : Matrix (Fin 18) (Fin 18) ℝ) (R : Matrix (Fin 6) (Fin 6) ℝ)
    (hP : P.PosSemidef) (hQ : Q.PosSemidef) (hR : R.PosDef) (dt : ℝ) :
    ∃ r, MltpRun dt Q R x P (l.map fun y => (0, y)) r ∧
      imuMultiplicativeAttitudeReconstruction0 ⟨k, l.map fun y => ⟨6, y⟩⟩ ⟨19, x⟩ ⟨18, 18, P⟩ ⟨18, 18, Q⟩ ⟨6, 6, R⟩ dt =
        .ok ⟨k - 1, ⟨19, x⟩ :: r.map fun v => ⟨19, v⟩⟩ := by
  have hz := zeroInputs_app 6 (l.length + 1) (k - 1) IArr.empty (Or.inl rfl)
  have hh : Holds _ _ _ := holds_app (a := IArr.empty) (i := k - 1) (Or.inl rfl) (List.replicate (l.length + 1) (DVec.zero 6))
  have hg : ∀ j : ℕ, j < l.length + 1 → (app (k - 1) (List.replicate (l.length + 1) (DVec.zero 6)) IArr.empty).get (k - 1 + j) = .ok ⟨6, 0⟩ := by
    intro j hj
    have := hh j (by simpa using hj)
    simp only [List.getElem_replicate] at this
    exact this
  obtain ⟨r, hr, h⟩ := C102_run (l.map fun y => ((0 : Fin 6 → ℝ), y)) k _ ⟨0, by simpa using hg 0 (by omega)⟩ (fun j hj => by
    simp only [List.getElem_map]
    exact hg j (by simp at hj; omega)) x hx P Q R hP hQ hR dt
  refine ⟨r, hr, ?_⟩
  rw [← h]
  simp only [imuMultiplicativeAttitudeReconstruction0, IArr.size, IArr.getFirstIndex, List.length_map, hz, Res.ok_bind, List.map_map]
  rfl

/-- The states of a run have unit quaternions. -/
theorem MltpRun.unit {dt : ℝ} {Q : Matrix (Fin 18) (Fin 18) ℝ} {R : Matrix (Fin 6) (Fin 6) ℝ} {x P l r} (h : MltpRun dt Q R x P l r) : ∀ v ∈ r, Unit4 v := by
  induction h with
  | done => simp
  | step x P u y l r F H A C Pp d v hF hH hA hC hP hd hv h ih =>
    intro w hw
    rcases List.mem_cons.1 hw with rfl | hw
    · exact hv.unit
    · exact ih w hw

/-- **C102** Every quaternion returned is a unit one. -/
theorem C102_unit (l : List ((Fin 6 → ℝ) × (Fin 6 → ℝ))) (k : Int) (us : IArr DVec) (h0 : ∃ w, us.get (k - 1) = .ok ⟨6, w⟩)
    (hu : ∀ j (h : j < l.length), us.get (k - 1 + j) = .ok ⟨6, l[j].1⟩) (x : Fin 19 → ℝ) (hx : Unit4 x) (P Q : Matrix (Fin 18) (Fin 18) ℝ)
    (R : Matrix (Fin 6) (Fin 6) ℝ) (hP : P.PosSemidef) (hQ : Q.PosSemidef) (hR : R.PosDef) (dt : ℝ) :
    ∃ a, imuMultiplicativeAttitudeReconstruction ⟨k, l.map fun e => ⟨6, e.2⟩⟩ us ⟨19, x⟩ ⟨18, 18, P⟩ ⟨18, 18, Q⟩ ⟨6, 6, R⟩ dt = .ok a ∧
      ∀ v ∈ a.v, ∃ w : Fin 19 → ℝ, v = ⟨19, w⟩ ∧ w 3 ^ 2 + w 4 ^ 2 + w 5 ^ 2 + w 6 ^ 2 = 1 := by
  obtain ⟨r, hr, e⟩ := C102_run l k us h0 hu x hx P Q R hP hQ hR dt
  have key : ∀ w : Fin 19 → ℝ, Unit4 w → w 3 ^ 2 + w 4 ^ 2 + w 5 ^ 2 + w 6 ^ 2 = 1 := by
    intro w h
    have h' : w 6 * w 6 + w 3 * w 3 + w 4 * w 4 + w 5 * w 5 = 1 := by
      rw [← h]; simp [quatOf, Quat.normSq, seg, qOri]; ring
    linarith
  refine ⟨_, e, fun v hv => ?_⟩
  rcases List.mem_cons.1 hv with rfl | hv
  · exact ⟨x, rfl, key x hx⟩
  · obtain ⟨w, hw, rfl⟩ := List.mem_map.1 hv
    exact ⟨w, rfl, key w (hr.unit w hw)⟩

/-- At rest with the identity quaternion. -/
noncomputable def rest : Fin 19 → ℝ := fun i => if i.val = 6 then 1 else 0

theorem rest_unit : Unit4 rest := by simp [Unit4, quatOf, Quat.normSq, seg, rest, qOri]

/-- Non-vacuity of C102: a unit at rest, three measurements from time -2 on. -/
example : ∃ a, imuMultiplicativeAttitudeReconstruction0 ⟨-2, [⟨6, ![0, 0, 9.8, 0, 0, 0]⟩, ⟨6, ![0, 1, 9.8, 0, 0, 0]⟩, ⟨6, ![0, 0, 9.8, 0, 2, 0]⟩]⟩
    ⟨19, rest⟩ ⟨18, 18, 1⟩ ⟨18, 18, 1⟩ ⟨6, 6, 1⟩ 0.01 = .ok a ∧ a.k = -3 ∧ a.v.length = 4 := by
  obtain ⟨r, hr, h⟩ := C102_noInput [![0, 0, 9.8, 0, 0, 0], ![0, 1, 9.8, 0, 0, 0], ![0, 0, 9.8, 0, 2, 0]] (-2) rest rest_unit 1 1 1 PosSemidef.one
    PosSemidef.one PosDef.one 0.01
  refine ⟨_, h, rfl, ?_⟩
  cases hr with
  | step _ _ _ _ _ _ _ _ _ _ _ _ _ _ _ _ _ _ _ _ h1 =>
    cases h1 with
    | step _ _ _ _ _ _ _ _ _ _ _ _ _ _ _ _ _ _ _ _ h2 =>
      cases h2 with
      | step _ _ _ _ _ _ _ _ _ _ _ _ _ _ _ _ _ _ _ _ h3 =>
        cases h3
        rfl

end StateObs.Offline
