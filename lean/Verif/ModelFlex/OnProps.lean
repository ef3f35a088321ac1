import Verif.ModelFlex.LimitProps
import Verif.ModelFlex.Live
/-!
# C97: the estimator switched off

`s.k` is the time of the estimator, `s.ekf.x` the state of the filter with its time, `s.ekf.st.pr` what `getFlexibilityCovariance()` returns, `s.Q` what `getProcessNoiseCovariance()` returns.
`t.lastX` after a call of `getFlexibilityVector()` is the vector it returned.
-/

namespace StateObs.ModelFlex
open StateObs KF Imu Rot Kine Matrix Obs
open StateObs.Elastic (at1)

theorem getVector_off {s : Est} (hi : Inv s) (hon : s.on = false) : s.getFlexibilityVector =
    .ok (if s.ekf.y.v = [] then { s with lastX := DVec.zero 35, ekf := { s.ekf with x := some (DVec.zero 35, s.k) } }
      else { s with lastX := DVec.zero 35, P := s.Q,
                    ekf := { s.ekf with x := some (DVec.zero 35, s.k), y := s.ekf.y.reset, u := s.ekf.u.reset, st := { s.ekf.st with pr := s.Q } } }) := by
  obtain ⟨x, hx⟩ := hi.f.x
  obtain ⟨l, hl⟩ := hi.lastX
  rw [Est.getFlexibilityVector, if_neg (by simp [hon])]
  have e0 : getCurrentTime s.ekf = .ok s.k := by rw [getCurrentTime, hx]
  have e1 : Obs.setState (cfg s.ekf) s.ekf (DVec.zero 35) s.k = .ok { s.ekf with x := some (DVec.zero 35, s.k) } := by
    have := obsSetState_live s.ekf (0 : Fin 35 → ℝ) s.k hi.f.n (by rw [hi.f.p]; omega)
    rw [drop_y_now hi.f.y, drop_u_now hi.f.u] at this
    exact this
  have e2 : s.lastX.size = 35 := by rw [hl]
  rw [e2]
  simp only [e0, e1, Res.ok_bind]
  by_cases hy : s.ekf.y.v = []
  · rw [if_neg (by simp [IArr.size, hy]), if_pos hy]
  · rw [if_pos (by simpa [IArr.size, List.length_pos_iff] using hy), if_neg hy]
    obtain ⟨Q, hQ⟩ := hi.qSize
    simp only [Est.resetStateCovarianceMatrix, setStateCovariance, clearInputs, clearMeasurements]
    have : KData.checkP s.ekf.st s.Q = true := by rw [KData.checkP, hi.f.nt, hQ]; exact DMat.hasSize_mk ..
    rw [this]
    rfl

/-! ## The properties -/

/-- Switched off, the estimator always returns the null vector: its filter is put in the null state without advancing; a measurement that waits is dropped together with all inputs and
the covariance of the state is reset to the one of the process noise. Without such a measurement the covariance is left. -/
theorem C97_off {mem : ℕ → ℕ → ℕ → ℝ} {dt : ℝ} {ops : List Op} {s : Est} (h : run mem dt ops = .ok s) (hon : (Config.of ops).on = false) :
    ∃ t, exec s .getFlexibilityVector = .ok t ∧ t.lastX = DVec.zero 35 ∧ t.k = s.k ∧ t.ekf.x = some (DVec.zero 35, s.k) ∧ ¬ Waits t ∧
      (Waits s → t.ekf.u.v = [] ∧ t.ekf.st.pr = s.Q) ∧ (¬ Waits s → t.ekf.u = s.ekf.u ∧ t.ekf.st.pr = s.ekf.st.pr) := by
  have hi := inv_run h
  have hc := has_run h
  have e := getVector_off hi (by rw [hc.on, hon])
  refine ⟨_, e, ?_⟩
  by_cases hy : s.ekf.y.v = []
  · rw [if_pos hy]
    exact ⟨rfl, rfl, rfl, fun h => h hy, fun h => absurd hy h, fun _ => ⟨rfl, rfl⟩⟩
  · rw [if_neg hy]
    exact ⟨rfl, rfl, rfl, fun h => h rfl, fun _ => ⟨rfl, rfl⟩, fun h => absurd hy h⟩

/-- Switched on again after it was asked for the vector, the estimator returns the null vector until a new measurement is given: the measurements received in between have no effect. -/
theorem C97_on {mem : ℕ → ℕ → ℕ → ℝ} {dt : ℝ} {ops : List Op} {s t : Est} (h : run mem dt ops = .ok s) (hon : (Config.of ops).on = false) (ht : exec s .getFlexibilityVector = .ok t) :
    ∃ t1, exec t (.setOn true) = .ok t1 ∧ exec t1 .getFlexibilityVector = .ok t1 ∧ t1.lastX = DVec.zero 35 ∧ t1.ekf.x = some (DVec.zero 35, s.k) := by
  obtain ⟨t', e, h1, h2, h3, h4, -⟩ := C97_off h hon
  rw [ht] at e
  cases e
  have h4 : t.ekf.y.v = [] := not_not.1 h4
  exact ⟨{ t with on := true }, rfl, getVector_idle rfl h4, h1, h3⟩

/-- Switched off, the rates of the momenta are null and nothing changes. -/
theorem C97_momenta {mem : ℕ → ℕ → ℕ → ℝ} {dt : ℝ} {ops : List Op} {s : Est} (h : run mem dt ops = .ok s) (hon : (Config.of ops).on = false) (b : Bool) :
    s.getMomentaDotFromForces b = .ok (0, s) ∧ s.getMomentaDotFromKinematics b = .ok (0, s) := by
  have hc := has_run h
  have : ¬ s.on = true := by rw [hc.on, hon]; simp
  exact ⟨by rw [Est.getMomentaDotFromForces, if_neg this], by rw [Est.getMomentaDotFromKinematics, if_neg this]⟩

/-- But the accelerations can not be asked: when a measurement waits, its inputs are dropped and reading the input fails an assertion, unless the compiler evaluates the arguments of the call from
right to left. -/
theorem C97_accelerations_false {mem : ℕ → ℕ → ℕ → ℝ} {dt : ℝ} {ops : List Op} {s : Est} (h : run mem dt ops = .ok s) (hon : (Config.of ops).on = false) (hw : Waits s) :
    s.computeAccelerations false = .assertFail := by
  have hi := inv_run h
  have hc := has_run h
  have e := getVector_off hi (by rw [hc.on, hon])
  rw [if_neg hw] at e
  simp only [Est.computeAccelerations, Est.arguments]
  rw [if_neg (by simp), e]
  rfl

/-- An estimator that is switched off while a measurement waits. -/
example (mem : ℕ → ℕ → ℕ → ℝ) (dt : ℝ) (y : Fin 6 → ℝ) : ∃ s, run mem dt [.setMeasurement ⟨6, y⟩, .setOn false] = .ok s ∧ (Config.of [.setMeasurement ⟨6, y⟩, .setOn false]).on = false ∧ Waits s := by
  obtain ⟨s0, e, hi, -, -, -, -, -, -, -, -, -, -, -, -, -, -, -, -, -, -, -, -, hsys, -⟩ := ctor_eq mem dt
  have r0 : run mem dt [] = .ok s0 := by rw [run, e]; rfl
  have hm : s0.sys.measSize = 6 := by rw [hsys]; rfl
  have e1 := setMeas_live hi (fun i => y (Fin.cast hm i))
  have hv : (⟨s0.sys.measSize, fun i => y (Fin.cast hm i)⟩ : DVec) = ⟨6, y⟩ := dvec_cast hm y
  rw [hv] at e1
  have r1 := run_snoc r0 e1
  simp only [List.nil_append] at r1
  have r2 := run_snoc r1 (op := .setOn false) rfl
  simp only [List.cons_append, List.nil_append] at r2
  exact ⟨_, r2, rfl, by simp [Waits]⟩

end StateObs.ModelFlex
