import Verif.Offline.MltpProps
/-! # Property C60 for the arithmetic that the offline estimation gives to its filter -/

namespace StateObs.Offline
open StateObs KF Matrix Imu Rot Kine Mltp

/-- **C60** The filter that got the quaternion arithmetic adds an increment to a state, and the difference between the sum and the state is the increment
(its rotation being between 1e-16 and π). -/
theorem C60_filter (f : KFilter EKF.Ext) (x : Fin 19 → ℝ) (d : Fin 18 → ℝ) (t : DVec) (hx : Unit4 x) (h0 : 1e-16 < nrm (seg 3 d iOri))
    (h1 : nrm (seg 3 d iOri) < Real.pi) :
    ∃ y, (setStateArithmetics f mltpArith).st.arith.stateSum ⟨19, x⟩ ⟨18, d⟩ = .ok y ∧
      (setStateArithmetics f mltpArith).st.arith.stateDifference t y ⟨19, x⟩ = .ok ⟨18, d⟩ := by
  refine ⟨⟨19, Mltp.stateSum x d⟩, ?_, ?_⟩
  · simp only [setStateArithmetics, mltpArith, sized_mk]
  · simp only [setStateArithmetics, mltpArith, sized_mk, C60_imu x d hx h0 h1]

/-- **C60** Vectors of the wrong sizes are assertion failures. -/
theorem C60_filter_sizes (f : KFilter EKF.Ext) (x y d t : DVec) :
    (x.size ≠ 19 ∨ d.size ≠ 18 → (setStateArithmetics f mltpArith).st.arith.stateSum x d = .assertFail) ∧
    (x.size ≠ 19 ∨ y.size ≠ 19 → (setStateArithmetics f mltpArith).st.arith.stateDifference t x y = .assertFail) := by
  simp only [setStateArithmetics, mltpArith, sized]
  constructor <;> rintro (h | h)
  · rw [dif_neg h]
  · split_ifs <;> rfl
  · rw [dif_neg h]
  · split_ifs <;> rfl

/-- Non-vacuity of C60_filter: a turn of one radian about the vertical from the rest. -/
example (f : KFilter EKF.Ext) : ∃ d : Fin 18 → ℝ, ∃ y, d ≠ 0 ∧
    (setStateArithmetics f mltpArith).st.arith.stateSum ⟨19, rest⟩ ⟨18, d⟩ = .ok y ∧
      (setStateArithmetics f mltpArith).st.arith.stateDifference ⟨18, 0⟩ y ⟨19, rest⟩ = .ok ⟨18, d⟩ := by
  have hn : nrm (seg 3 (setSeg (0 : Fin 18 → ℝ) iOri (![0, 0, 1] : Fin 3 → ℝ)) iOri) = 1 := by
    rw [seg_setSeg_same _ _ _ (by decide)]
    simp [nrm]
  obtain ⟨y, e1, e2⟩ := C60_filter f rest (setSeg (0 : Fin 18 → ℝ) iOri (![0, 0, 1] : Fin 3 → ℝ)) ⟨18, 0⟩ rest_unit (by rw [hn]; norm_num)
    (by rw [hn]; linarith [Real.two_le_pi])
  refine ⟨_, y, fun h => ?_, e1, e2⟩
  rw [h] at hn
  have : seg 3 (0 : Fin 18 → ℝ) iOri = 0 := by ext i; simp [seg]
  rw [this] at hn
  simp [nrm] at hn

end StateObs.Offline
