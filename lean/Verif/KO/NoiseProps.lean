import Verif.KO.NoiseModel
import Verif.KO.MovedProps
/-!
# Property C133: the noises given to the kinetics observer
-/

namespace StateObs.KO
open StateObs KF
variable {R : Type}

/-- What the documentation says ("Sets a noise which disturbs the state dynamics"): the prediction is what the noise makes of the state predicted without noise. -/
def C133_state_statement : Prop := ∀ (R : Type) (o : Observer) (n : NoiseObj R) (r : R) (x x' : DVec),
  o.stateDynamics x = .ok x' → ((Disturbed.ofNew o).setProcessNoise n).stateDynamics r x = n r x'

/-- "Sets a noise which disturbs the measurements": the same for the measurements. -/
def C133_measurement_statement : Prop := ∀ (R : Type) (o : Observer) (n : NoiseObj R) (r : R) (x y : DVec) (k : Int),
  o.measureDynamics x k = .ok y → ((Disturbed.ofNew o).setMeasurementNoise n).measureDynamics r x k = n r y

/-- The noises do not disturb anything: the state and the measurement predicted, if they are returned, are those without noise. They are returned exactly when
the noise accepts the vector, and the noise draws its random numbers. -/
theorem C133_ignored (d : Disturbed R) (r : R) (x : DVec) (k : Int) :
    (∀ z, d.stateDynamics r x = .ok z → d.obs.stateDynamics x = .ok z.1) ∧ (∀ z, d.measureDynamics r x k = .ok z → d.obs.measureDynamics x k = .ok z.1) ∧
    (∀ n x' y, d.getProcessNoise = some n → d.obs.stateDynamics x = .ok x' → n r x' = .ok y → d.stateDynamics r x = .ok (x', y.2)) ∧
    (∀ n y' y, d.getMeasurementNoise = some n → d.obs.measureDynamics x k = .ok y' → n r y' = .ok y → d.measureDynamics r x k = .ok (y', y.2)) := by
  have key : ∀ (n : Option (NoiseObj R)) (x : DVec) (z : DVec × R), Disturbed.disturb n r x = .ok z → z.1 = x := by
    intro n x z h
    cases n with
    | none => cases h; rfl
    | some n =>
      obtain ⟨y, -, h2⟩ := Res.bind_eq_ok.1 h
      cases h2
      rfl
  refine ⟨fun z h => ?_, fun z h => ?_, fun n x' y h1 h2 h3 => ?_, fun n x' y h1 h2 h3 => ?_⟩
  · obtain ⟨x', h1, h2⟩ := Res.bind_eq_ok.1 h
    rw [h1, key _ _ _ h2]
  · obtain ⟨x', h1, h2⟩ := Res.bind_eq_ok.1 h
    rw [h1, key _ _ _ h2]
  · have h1' : d.process = some n := h1
    simp only [Disturbed.stateDynamics, h2, Res.ok_bind, h1', Disturbed.disturb, h3]
  · have h1' : d.measurement = some n := h1
    simp only [Disturbed.measureDynamics, h2, Res.ok_bind, h1', Disturbed.disturb, h3]

/-- The claim holds without a noise, and what has been set is what the getters return; setting or removing a noise has no effect on the other. Missing: the effect of
a noise, see `C133_false`. -/
theorem C133_partial (d : Disturbed R) (n : NoiseObj R) (r : R) (x : DVec) (k : Int) :
    ((d.resetProcessNoise).stateDynamics r x = (d.obs.stateDynamics x >>= fun x' => .ok (x', r))) ∧
    ((d.resetMeasurementNoise).measureDynamics r x k = (d.obs.measureDynamics x k >>= fun y => .ok (y, r))) ∧
    (d.setProcessNoise n).getProcessNoise = some n ∧ (d.setMeasurementNoise n).getMeasurementNoise = some n ∧
    (d.resetProcessNoise).getProcessNoise = none ∧ (d.resetMeasurementNoise).getMeasurementNoise = none ∧
    (d.setProcessNoise n).getMeasurementNoise = d.getMeasurementNoise ∧ (d.setMeasurementNoise n).getProcessNoise = d.getProcessNoise ∧
    (d.resetProcessNoise).getMeasurementNoise = d.getMeasurementNoise ∧ (d.resetMeasurementNoise).getProcessNoise = d.getProcessNoise :=
  ⟨rfl, rfl, rfl, rfl, rfl, rfl, rfl, rfl, rfl, rfl⟩

/-- A noise that adds one to all components. -/
noncomputable def plusOne : NoiseObj Unit := fun r x => .ok (⟨x.size, fun i => x.val i + 1⟩, r)

theorem plusOne_ne {x : DVec} (hx : 0 < x.size) : plusOne () x ≠ .ok (x, ()) := by
  intro h
  obtain ⟨n, v⟩ := x
  have h1 := congrArg Prod.fst (Res.ok.inj h)
  simp only [DVec.mk.injEq, heq_eq_eq, true_and] at h1
  have := congrFun h1 ⟨0, hx⟩
  simp at this

/-- The full claim is false for the state: a client can reach an observer for which a noise has no effect. -/
theorem C133_state_false : ¬ C133_state_statement := by
  intro h
  obtain ⟨c, o, l, hp, -, -, hx, -⟩ := predict_example 0
  obtain ⟨x', ex, hs, -⟩ := C106_returns hp hx
  have h1 := h Unit o plusOne () _ x' ex
  have h2 : ((Disturbed.ofNew o).setProcessNoise plusOne).stateDynamics () (awayState 0) = .ok (x', ()) :=
    ((C133_ignored ((Disturbed.ofNew o).setProcessNoise plusOne) () (awayState 0) 0).2.2.1 plusOne x' _ rfl ex rfl)
  exact plusOne_ne (by omega) (h1.symm.trans h2)

/-- The full claim is false for the measurements. -/
theorem C133_measurement_false : ¬ C133_measurement_statement := by
  intro h
  obtain ⟨c, o, m, hp, h1, h2, h3, h4, h5⟩ := C108_example (nc := 1) (ni := 1) one_pos one_pos 0 0
  obtain ⟨-, -, -, -, -, -, hx, -⟩ := predict_example 0
  obtain ⟨oy, z, cov, yb, hb, ex, -, ha, ⟨r, rx⟩, l, hl⟩ := C108_returns hp h1 h2 h3 hx
  obtain ⟨o0, ops, g1, -, g2⟩ := hp.run
  have c1 := C108_computed_partial ⟨o0, g1, g2⟩ ha hb ex (unit_of hx) rx hl
  have hs : 0 < yb.size := by
    have hl := congrArg List.length c1
    rw [List.length_ofFn] at hl
    obtain ⟨L, hL⟩ : ∃ L, o.imus = m :: L := by
      cases hi : o.imus with
      | nil => rw [hi] at h4; simp at h4
      | cons a L => rw [hi] at h4; simp at h4; exact ⟨L, by rw [h4]⟩
    rw [hL, imuReadings, if_pos h5] at hl
    simp at hl
    omega
  have e1 := h Unit oy plusOne () _ yb _ ex
  have e2 : ((Disturbed.ofNew oy).setMeasurementNoise plusOne).measureDynamics () (awayState 0) o.kData = .ok (yb, ()) :=
    ((C133_ignored ((Disturbed.ofNew oy).setMeasurementNoise plusOne) () (awayState 0) o.kData).2.2.2 plusOne yb _ rfl ex rfl)
  exact plusOne_ne hs (e1.symm.trans e2)

end StateObs.KO
