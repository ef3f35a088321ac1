import Verif.ZeroDelay.Props
/-!
# C12: pushing without a time
-/

namespace StateObs.Obs
open StateObs IArrSpec

variable {σ X Y U : Type}

/-- **C12**, `pushMeasurement`: the measurement is that of the time after the last stored one, or, if none is stored, of the time after the one of the state; this is
what `setMeasurement` does with this time. Without measurements and without state the call fails. -/
theorem C12_pushMeasurement (c : ObsCfg X Y U) (s : Obs σ X Y U) (y : Y) :
    (∀ t, s.getMeasurementTime = .ok t → pushMeasurement c s y = setMeasurement c s y (t + 1)) ∧
    (s.y.size = 0 → ∀ t, s.getCurrentTime = .ok t → pushMeasurement c s y = setMeasurement c s y (t + 1)) ∧
    (s.y.size = 0 → s.x = none → pushMeasurement c s y = .assertFail) := by
  refine ⟨fun t ht => ?_, fun h0 t ht => ?_, fun h0 hx => ?_⟩
  · unfold getMeasurementTime at ht
    by_cases h0 : s.y.size > 0
    · simp only [h0, decide_true, Res.assert_true, Res.ok_bind, Res.ok.injEq] at ht
      subst ht
      have e : s.y.getNextIndex = s.y.getLastIndex + 1 := by simp only [IArr.getNextIndex, IArr.getLastIndex]; omega
      have hc : s.y.checkIndex (s.y.getLastIndex + 1) = false := by
        rw [← Bool.not_eq_true, checkIndex_iff]; simp only [IArr.getLastIndex]; omega
      have hn : s.y.checkNext (s.y.getLastIndex + 1) = true := by
        simp [IArr.checkNext, IArr.getLastIndex]
      have hl : ¬ s.y.v.length = 0 := by simp only [IArr.size] at h0; omega
      unfold pushMeasurement setMeasurement
      simp [h0, e, IArr.setValue, hc, hn, IArr.pushBack, hl]
    · simp [h0] at ht
  · unfold getCurrentTime at ht
    cases hx : s.x with
    | none => rw [hx] at ht; cases ht
    | some q =>
      rw [hx] at ht
      cases ht
      unfold pushMeasurement setMeasurement
      have h1 : ¬ s.y.size > 0 := by omega
      have h2 : decide (q.2 = q.2 + 1 - 1) = true := decide_eq_true (by omega)
      simp only [if_neg h1, hx, h2, Res.assert_true, Res.ok_bind]
  · unfold pushMeasurement
    have h1 : ¬ s.y.size > 0 := by omega
    simp only [if_neg h1, hx]
    cases c.okY y <;> rfl

/-- **C12**, `pushInput`: the input is that of the time after the last stored one, or, if none is stored, of the time of the state; this is what `setInput` does with this
time. Without inputs and without state the call fails. An observer without inputs ignores the call. -/
theorem C12_pushInput (c : ObsCfg X Y U) (s : Obs σ X Y U) (u : U) :
    (s.u.size ≠ 0 → pushInput c s u = setInput c s u (s.u.getLastIndex + 1)) ∧
    (s.u.size = 0 → ∀ t, s.getCurrentTime = .ok t → pushInput c s u = setInput c s u t) ∧
    (c.p > 0 → s.u.size = 0 → s.x = none → pushInput c s u = .assertFail) ∧
    (c.p = 0 → pushInput c s u = .ok s) := by
  refine ⟨fun h => ?_, fun h0 t ht => ?_, fun hp h0 hx => ?_, fun hp => by simp [pushInput, hp]⟩
  · have h0 : s.u.size > 0 := by omega
    have e : s.u.getNextIndex = s.u.getLastIndex + 1 := by simp only [IArr.getNextIndex, IArr.getLastIndex]; omega
    have hc : s.u.checkIndex (s.u.getLastIndex + 1) = false := by
      rw [← Bool.not_eq_true, checkIndex_iff]; simp only [IArr.getLastIndex]; omega
    have hn : s.u.checkNext (s.u.getLastIndex + 1) = true := by
      simp [IArr.checkNext, IArr.getLastIndex]
    have hl : ¬ s.u.v.length = 0 := by simp only [IArr.size] at h0; omega
    unfold pushInput setInput
    by_cases hp : c.p > 0
    · simp [hp, h0, e, IArr.setValue, hc, hn, IArr.pushBack, hl]
    · simp [hp]
  · unfold getCurrentTime at ht
    cases hx : s.x with
    | none => rw [hx] at ht; cases ht
    | some q =>
      rw [hx] at ht
      cases ht
      unfold pushInput setInput
      have h1 : ¬ s.u.size > 0 := by omega
      simp only [if_neg h1, hx, decide_true, Bool.true_or, Res.assert_true, Res.ok_bind]
  · unfold pushInput
    have h1 : ¬ s.u.size > 0 := by omega
    simp only [if_pos hp, if_neg h1, hx]
    cases c.okU u <;> rfl

/-- A first measurement, and a second one; a first input, and a second one. -/
example : (do
    let s ← setState (⟨fun _ => true, fun _ => true, fun _ => true, 1⟩ : ObsCfg Int Int Int) (⟨none, ⟨0, []⟩, ⟨0, []⟩, ()⟩ : Obs Unit Int Int Int) 0 4
    let s ← pushMeasurement ⟨fun _ => true, fun _ => true, fun _ => true, 1⟩ s 10
    let s ← pushMeasurement ⟨fun _ => true, fun _ => true, fun _ => true, 1⟩ s 20
    let s ← pushInput ⟨fun _ => true, fun _ => true, fun _ => true, 1⟩ s 30
    pushInput ⟨fun _ => true, fun _ => true, fun _ => true, 1⟩ s 40) = .ok ⟨some (0, 4), ⟨5, [10, 20]⟩, ⟨4, [30, 40]⟩, ()⟩ := rfl

end StateObs.Obs
